import Verif.Lemmas.CosmeticSim
import Verif.Props.Solvers

/-!
# Descriptions, LaTeX texts and bounds (C97)
-/

namespace Sloth

/-! ## Erasing what is only meant for readers -/

namespace Spec

/-- Without description, LaTeX text and bounds. -/
def bareQty (q : Quantity) : Quantity := { q with description := "", latex := "", lowerBound := none, upperBound := none }
def bareVar (a : VarArgs) : VarArgs := { a with description := "", latex := "", lower := none, upper := none }
def barePar (a : ParArgs) : ParArgs := { a with description := "", latex := "" }
/-- Without the two texts of an expression. -/
def bareNode (n : ENode) : ENode := { n with name := "", latex := "" }

def bareCmd : Cmd → Cmd
  | .var attr a => .var attr (bareVar a)
  | .par attr a => .par attr (barePar a)
  | .con attr a => .con attr (barePar a)
  | .eqn attr name _ st ck => .eqn attr name "" st ck
  | c => c

def bareBody (b : Body) : Body := ⟨b.cons.map bareCmd, b.pars.map bareCmd, b.vars.map bareCmd, b.eqns.map bareCmd⟩

def bareRes : ResArg → ResArg
  | .eqn l r => .eqn (bareNode l) (bareNode r)
  | .eqnNum l q => .eqnNum (bareNode l) q
  | .eqnOther l => .eqnOther (bareNode l)
  | .node n => .node (bareNode n)
  | .other => .other

def bareVal : SVArg → SVArg
  | .qty q => .qty (bareQty q)
  | v => v

def bareConn : ConnArg → ConnArg
  | .node n => .node (bareNode n)
  | c => c

/-- A call without the descriptions, LaTeX texts and bounds in its arguments. -/
def bareOp : Op → Op
  | .newModel n _ b p => .newModel n "" (bareBody b) p
  | .var m a => .var m (bareVar a)
  | .par m a => .par m (barePar a)
  | .con m a => .con m (barePar a)
  | .eqn m n _ a ck => .eqn m n "" (a.map bareRes) ck
  | .cmd m c => .cmd m (bareCmd c)
  | .setValue r v u => .setValue r (bareVal v) u
  | .modelConn m o i a => .modelConn m o i (bareRes a)
  | .connect s m o i a => .connect s m (bareConn o) (bareConn i) (a.map bareRes)
  | o => o

def plain {K : Type} : SOp K → SOp K
  | .base o => .base (bareOp o)
  | o => o

/-- What the calls of a session return or raise. -/
def outcomes {K : Type} [Field K] [LinearOrder K] (ext : Ext K) (I : Interp K) : List (SOp K) → SimWorld K → List (Except Err Unit)
  | [], _ => []
  | o :: t, s => (o.exec ext I s).1 :: outcomes ext I t (o.exec ext I s).2

/-- Reports that agree but for the descriptions. -/
def bareRow (r : ReportRow) : ReportRow := { r with description := "" }

end Spec

/-! ## The same erasure -/

theorem node_of_bare {a b : ENode} (h : Spec.bareNode a = Spec.bareNode b) : a.Twin Eq b := by
  obtain ⟨n, s, sm, vm, ty, u, l, r⟩ := a
  obtain ⟨n', s', sm', vm', ty', u', l', r'⟩ := b
  simp only [Spec.bareNode, ENode.mk.injEq] at h
  obtain ⟨-, rfl, rfl, rfl, rfl, rfl, -, rfl⟩ := h
  exact ⟨rfl, rfl, rfl, rfl, DRel.self _, DRel.self _⟩

theorem qty_of_bare {a b : Quantity} (h : Spec.bareQty a = Spec.bareQty b) : a.Same b := by
  cases a
  cases b
  simp only [Spec.bareQty, Quantity.mk.injEq] at h
  exact ⟨h.1, h.2.1, h.2.2.1, h.2.2.2.2.1, h.2.2.2.2.2.2.1, h.2.2.2.2.2.2.2.1, h.2.2.2.2.2.2.2.2.2.2.1, h.2.2.2.2.2.2.2.2.2.2.2.1, h.2.2.2.2.2.2.2.2.2.2.2.2⟩

theorem bare_of_qty {a b : Quantity} (h : a.Same b) : Spec.bareQty a = Spec.bareQty b := by
  simp only [Spec.bareQty, h.kind, h.name, h.units, h.value, h.isSpecified, h.owner, h.isExposed, h.vtype, h.hasDomain]

theorem var_of_bare {a b : VarArgs} (h : Spec.bareVar a = Spec.bareVar b) :
    a.name = b.name ∧ a.units = b.units ∧ a.exposed = b.exposed ∧ a.vtype = b.vtype ∧ a.value = b.value := by
  cases a
  cases b
  simp only [Spec.bareVar, VarArgs.mk.injEq] at h
  exact ⟨h.1, h.2.1, h.2.2.2.2.2.1, h.2.2.2.2.2.2.1, h.2.2.2.2.2.2.2.2⟩

theorem par_of_bare {a b : ParArgs} (h : Spec.barePar a = Spec.barePar b) : a.name = b.name ∧ a.units = b.units ∧ a.value = b.value := by
  cases a
  cases b
  simp only [Spec.barePar, ParArgs.mk.injEq] at h
  exact ⟨h.1, h.2.1, h.2.2.2.1⟩

theorem cmd_of_bare {c d : Cmd} (h : Spec.bareCmd c = Spec.bareCmd d) : c.Cosm d := by
  cases c <;> cases d <;> simp only [Spec.bareCmd, Cmd.var.injEq, Cmd.par.injEq, Cmd.con.injEq, Cmd.eqn.injEq, Cmd.setValue.injEq, Cmd.distribute.injEq, Cmd.fail.injEq, reduceCtorEq] at h
  · obtain ⟨rfl, h⟩ := h
    obtain ⟨h1, h2, h3, h4, h5⟩ := var_of_bare h
    exact .var _ h1 h2 h3 h4 h5
  · obtain ⟨rfl, h⟩ := h
    obtain ⟨h1, h2, h3⟩ := par_of_bare h
    exact .par _ h1 h2 h3
  · obtain ⟨rfl, h⟩ := h
    obtain ⟨h1, h2, h3⟩ := par_of_bare h
    exact .con _ h1 h2 h3
  · obtain ⟨rfl, rfl, -, rfl, rfl⟩ := h
    exact .eqn _ _ _ _ _ _
  · obtain ⟨rfl, rfl, rfl⟩ := h
    exact .setValue _ _ _
  · subst h
    exact .distribute _
  · subst h
    exact .fail _

theorem forall₂_of_map {α β : Type} {R : α → α → Prop} {f : α → β} (hf : ∀ a b, f a = f b → R a b) {l l' : List α} (h : l.map f = l'.map f) : List.Forall₂ R l l' := by
  induction l generalizing l' with
  | nil =>
    cases l' with
    | nil => exact .nil
    | cons => cases h
  | cons a t ih =>
    cases l' with
    | nil => cases h
    | cons b t' =>
      simp only [List.map_cons, List.cons.injEq] at h
      exact .cons (hf _ _ h.1) (ih h.2)

theorem map_of_forall₂ {α β : Type} {R : α → α → Prop} {f : α → β} (hf : ∀ a b, R a b → f a = f b) {l l' : List α} (h : List.Forall₂ R l l') : l.map f = l'.map f := by
  induction h with
  | nil => rfl
  | cons h _ ih => rw [List.map_cons, List.map_cons, hf _ _ h, ih]

theorem body_of_bare {b c : Body} (h : Spec.bareBody b = Spec.bareBody c) : b.Cosm c := by
  simp only [Spec.bareBody, Body.mk.injEq] at h
  exact ⟨forall₂_of_map (fun _ _ => cmd_of_bare) h.1, forall₂_of_map (fun _ _ => cmd_of_bare) h.2.1, forall₂_of_map (fun _ _ => cmd_of_bare) h.2.2.1,
    forall₂_of_map (fun _ _ => cmd_of_bare) h.2.2.2⟩

theorem res_of_bare {a b : ResArg} (h : Spec.bareRes a = Spec.bareRes b) : a.Twin Eq b := by
  cases a <;> cases b <;> simp only [Spec.bareRes, ResArg.eqn.injEq, ResArg.eqnNum.injEq, ResArg.eqnOther.injEq, ResArg.node.injEq, reduceCtorEq] at h
  · exact .eqn (node_of_bare h.1) (node_of_bare h.2)
  · obtain ⟨h, rfl⟩ := h
    exact .eqnNum _ (node_of_bare h)
  · exact .eqnOther (node_of_bare h)
  · exact .node (node_of_bare h)
  · exact .other

theorem ores_of_bare {a b : Option ResArg} (h : a.map Spec.bareRes = b.map Spec.bareRes) : Option.Rel (ResArg.Twin Eq) a b := by
  cases a <;> cases b <;> simp only [Option.map_none, Option.map_some, Option.some.injEq, reduceCtorEq] at h
  · exact .none
  · exact .some (res_of_bare h)

theorem val_of_bare {a b : SVArg} (h : Spec.bareVal a = Spec.bareVal b) : Quantity.Same.Arg a b := by
  cases a <;> cases b <;> simp only [Spec.bareVal, SVArg.qty.injEq, SVArg.float.injEq, SVArg.int.injEq, reduceCtorEq] at h
  · exact .qty (qty_of_bare h)
  · subst h; exact .float _
  · subst h; exact .int _
  · exact .other

theorem conn_of_bare {a b : ConnArg} (h : Spec.bareConn a = Spec.bareConn b) : a.Cosm b := by
  cases a <;> cases b <;> simp only [Spec.bareConn, ConnArg.var.injEq, ConnArg.list.injEq, ConnArg.node.injEq, reduceCtorEq] at h
  · subst h; exact .var _
  · subst h; exact .list _
  · exact .node (node_of_bare h)

theorem op_of_bare {o p : Op} (h : Spec.bareOp o = Spec.bareOp p) : Blind Eq o.run p.run := by
  cases o <;> cases p <;> simp only [Spec.bareOp, Op.newModel.injEq, Op.var.injEq, Op.par.injEq, Op.con.injEq, Op.eqn.injEq, Op.cmd.injEq, Op.setValue.injEq,
    Op.incorporate.injEq, Op.setInlets.injEq, Op.modelConn.injEq, Op.call.injEq, Op.connect.injEq, Op.addModels.injEq, Op.initial.injEq, Op.time.injEq, reduceCtorEq] at h
  · exact .void (.newP [])
  · obtain ⟨rfl, -, h, rfl⟩ := h
    exact .void (.newModel _ _ _ (body_of_bare h) _)
  · obtain ⟨rfl, h⟩ := h
    obtain ⟨h1, h2, h3, h4, h5⟩ := var_of_bare h
    exact .void (.createVariable _ h1 h2 h3 h4 h5)
  · obtain ⟨rfl, h⟩ := h
    obtain ⟨h1, h2, h3⟩ := par_of_bare h
    exact .void (.createParameter _ h1 h2 h3)
  · obtain ⟨rfl, h⟩ := h
    obtain ⟨h1, h2, h3⟩ := par_of_bare h
    exact .void (.createConstant _ h1 h2 h3)
  · obtain ⟨rfl, rfl, -, h, rfl⟩ := h
    exact .void (.createEquation _ _ _ _ (ores_of_bare h) _)
  · obtain ⟨rfl, h⟩ := h
    exact .cmd _ (cmd_of_bare h)
  · obtain ⟨rfl, h, rfl⟩ := h
    exact .setValueM _ (val_of_bare h) _
  · obtain ⟨rfl, rfl, rfl⟩ := h
    exact .incorporate _ _ _
  · obtain ⟨rfl, rfl, rfl⟩ := h
    exact .setInlets _ _ _
  · obtain ⟨rfl, rfl, rfl, h⟩ := h
    exact .void (.createModelConnection _ _ _ (res_of_bare h))
  · subst h
    exact .call _
  · obtain ⟨rfl, rfl, h1, h2, h3⟩ := h
    exact .createConnection _ _ (conn_of_bare h1) (conn_of_bare h2) (ores_of_bare h3)
  · subst h
    exact .addModels _
  · subst h
    exact .setInitialConditions _
  · subst h
    exact .setTimeVariableName _
  · exact .resolve

section
variable {K : Type} [Field K] [LinearOrder K] (ext : Ext K) (I : Interp K)

theorem sop_of_bare {o p : SOp K} (h : Spec.plain o = Spec.plain p) {s t : SimWorld K} (hst : s.Cosm t) :
    (o.exec ext I s).1 = (p.exec ext I t).1 ∧ (o.exec ext I s).2.Cosm (p.exec ext I t).2 := by
  cases o <;> cases p <;> simp only [Spec.plain, SOp.base.injEq, SOp.newList.injEq, SOp.newDomain.injEq, SOp.domain.injEq, SOp.newSim.injEq, SOp.configure.injEq,
    SOp.run.injEq, SOp.status.injEq, SOp.reset.injEq, reduceCtorEq] at h
  · rename_i o p
    have h1 := op_of_bare h s.w t.w hst.w
    refine ⟨?_, h1.2, hst.lists, hst.doms, hst.sims, hst.log⟩
    have h2 := h1.1
    show (o.run s.w).1 = (p.run t.w).1
    cases hx : (o.run s.w).1 <;> cases hy : (p.run t.w).1 <;> rw [hx, hy] at h2 <;> first | exact h2.elim | (cases h2; rfl)
  · subst h
    exact ⟨rfl, hst.w, congrArg (· ++ _) hst.lists, hst.doms, hst.sims, hst.log⟩
  · obtain ⟨rfl, rfl⟩ := h
    exact ⟨rfl, hst.w, hst.lists, congrArg (· ++ _) hst.doms, hst.sims, hst.log⟩
  · obtain ⟨rfl, rfl⟩ := h
    exact Deaf.bind (Deaf.getD _) (fun _ => Deaf.setD _ _) s t hst
  · subst h
    exact ⟨rfl, hst.w, hst.lists, hst.doms, congrArg (· ++ _) hst.sims, hst.log⟩
  · obtain ⟨rfl, rfl, rfl, rfl⟩ := h
    exact Deaf.setConfigurations _ _ _ _ s t hst
  · obtain ⟨rfl, rfl⟩ := h
    exact Deaf.runSimulation ext I _ _ s t hst
  · subst h
    exact Deaf.bind (Deaf.getStatus _) (fun _ => Deaf.ret _) s t hst
  · subst h
    exact Deaf.resetSim _ s t hst

theorem sessions_of_bare {ops ops' : List (SOp K)} (h : ops.map Spec.plain = ops'.map Spec.plain) {s t : SimWorld K} (hst : s.Cosm t) :
    Spec.outcomes ext I ops s = Spec.outcomes ext I ops' t ∧
      (ops.foldl (fun s o => (o.exec ext I s).2) s).Cosm (ops'.foldl (fun s o => (o.exec ext I s).2) t) := by
  induction ops generalizing ops' s t with
  | nil =>
    cases ops' with
    | nil => exact ⟨rfl, hst⟩
    | cons => cases h
  | cons o l ih =>
    cases ops' with
    | nil => cases h
    | cons o' l' =>
      simp only [List.map_cons, List.cons.injEq] at h
      have h1 := sop_of_bare ext I h.1 hst
      have h2 := ih h.2 h1.2
      refine ⟨?_, h2.2⟩
      simp only [Spec.outcomes]
      rw [h1.1, h2.1]

/-! ## C97 -/

/-- C97: two sessions that differ in descriptions, LaTeX texts and bounds only.  Every call returns or raises the same; the problem with its equation block, the
simulations with their results, the domains and the numerical routines called are the same; quantities and equations agree but for these texts
and bounds; what the check of the degrees of freedom says and what is shown as results is the same. -/
theorem texts_and_bounds_irrelevant {ops ops' : List (SOp K)} (h : ops.map Spec.plain = ops'.map Spec.plain) :
    Spec.outcomes ext I ops { w := World.init } = Spec.outcomes ext I ops' { w := World.init } ∧
    ∀ s s', s = simHistory ext I ops → s' = simHistory ext I ops' →
      s.sims = s'.sims ∧ s.doms = s'.doms ∧ s.lists = s'.lists ∧ s.log = s'.log ∧ s.w.pr = s'.w.pr ∧
      s.w.qs.map Spec.bareQty = s'.w.qs.map Spec.bareQty ∧
      List.Forall₂ (fun e f => Spec.SameEqn e f ∧ e.objects = f.objects) s.w.es s'.w.es ∧
      (s.w.ms.map fun mo => { mo with description := "", body := {} }) = (s'.w.ms.map fun mo => { mo with description := "", body := {} }) ∧
      (∀ sr, (dofTest sr s.w).1 = (dofTest sr s'.w).1) ∧
      (∀ i, (showResults i s).1 = (showResults i s').1) := by
  have h0 : SimWorld.Cosm ({ w := World.init } : SimWorld K) { w := World.init } := ⟨World.Cosm.init, rfl, rfl, rfl, rfl⟩
  obtain ⟨h1, h2⟩ := sessions_of_bare ext I h h0
  refine ⟨h1, ?_⟩
  rintro s s' rfl rfl
  have h2 : (simHistory ext I ops).Cosm (simHistory ext I ops') := h2
  refine ⟨h2.sims, h2.doms, h2.lists, h2.log, h2.w.pr, map_of_forall₂ (R := Quantity.Same) (fun _ _ => bare_of_qty) h2.w.qs, h2.w.es.imp fun _ _ h => ⟨h.sameEqn, h.objects_eq⟩,
    map_of_forall₂ (R := ModelObj.Cosm) ?_ h2.w.ms, fun sr => ?_, fun i => (Deaf.showResults i _ _ h2).1⟩
  · rintro mo no ⟨d, b, rfl, -⟩
    rfl
  · exact (Deaf.ofWorld (K := K) (Blind.dofTest sr) _ _ h2).1

/-- C97: reports on models agree but for the descriptions. -/
theorem report_texts {ops ops' : List (SOp K)} (h : ops.map Spec.plain = ops'.map Spec.plain) (m : MRef) :
    ((modelReport m (simHistory ext I ops).w).1.map (List.map Spec.bareRow)) = ((modelReport m (simHistory ext I ops').w).1.map (List.map Spec.bareRow)) := by
  have h0 : SimWorld.Cosm ({ w := World.init } : SimWorld K) { w := World.init } := ⟨World.Cosm.init, rfl, rfl, rfl, rfl⟩
  have h2 : (simHistory ext I ops).Cosm (simHistory ext I ops') := (sessions_of_bare ext I h h0).2
  have hk : ∀ {w v : World}, w.Cosm v → ∀ d, inspectForObjects w.qs d = inspectForObjects v.qs d := by
    intro w v hw d
    have : ∀ k b, inspectKind w.qs k b d = inspectKind v.qs k b d := by
      intro k b
      unfold inspectKind
      congr 1
      funext p
      rcases rel_cases (forall₂_get hw.qs p.2) with ⟨h1, h2⟩ | ⟨q, q', h1, h2, hq⟩
      · simp only [h1, h2]
      · simp only [h1, h2, hq.kind, mark, hq.isSpecified]
    simp only [inspectForObjects, this]
  have hb : Blind (List.Forall₂ fun a b => Spec.bareRow a = Spec.bareRow b) (modelReport m) (modelReport m) := by
    unfold modelReport
    refine .bind (.getM m) fun mo no hm => ?_
    obtain ⟨d, b, rfl, -⟩ := hm
    refine .collect (forall₂_eq _) fun r r' hr => ?_
    subst hr
    intro w v hw
    unfold reportEqn
    rcases rel_cases (forall₂_get hw.es r) with ⟨h1, h2⟩ | ⟨e, f, h1, h2, hef⟩
    · simp only [h1, h2]
      exact ⟨rfl, hw⟩
    · simp only [h1, h2]
      refine ⟨?_, hw⟩
      unfold reportRow
      rcases rel_cases hef.expr with ⟨g1, g2⟩ | ⟨x, y, g1, g2, hxy⟩
      · simp only [g1, g2]
        rfl
      · simp only [g1, g2, hk hw, hxy.symMap.eq, hxy.ty, hxy.repr, hef.name]
        exact .same fun t => rfl
  have h3 := (hb _ _ h2.w).1
  cases hx : (modelReport m (simHistory ext I ops).w).1 <;> cases hy : (modelReport m (simHistory ext I ops').w).1 <;> rw [hx, hy] at h3 <;> first | exact h3.elim | skip
  · cases h3; rfl
  · exact congrArg Except.ok (map_of_forall₂ (fun _ _ h => h) h3)

end

/-! ## Sample sessions -/

namespace Ex
/-- The linear sample told in two ways: with descriptions, LaTeX texts and bounds, and without. -/
def worded (d l : String) (lo hi : Option Rat) : List (SOp Rat) :=
  ([.newModel "m" d {} none, .cmd 0 (.var "y" { name := "y", units := Tmpl.dimless, description := d, latex := l, lower := lo, upper := hi }), .cmd 0 (dv "x"),
    .cmd 0 (.eqn "sum" "sum" d (.res (.binN .sub (.bin .add (at_ "x") (at_ "y")) 3)) true), .cmd 0 (.eqn "dif" "dif" d (.res (.binN .sub (.bin .sub (at_ "y") (at_ "x")) 1)) true),
    .addModels (.leaf 0), .resolve] : List Op).map .base ++ [.newSim "s", .configure 0 [] none none, .run 0 {}]
end Ex

/-- C97 applies to sessions that differ and whose runs succeed; the bounds kept with the quantities differ, and so do the descriptions in reports; the
result 2 lies above the upper bound 1, which nothing notices. -/
example : (Ex.worded "level" "h_y" (some 0) (some 1)).map Spec.plain = (Ex.worded "" "" none none).map Spec.plain ∧
    (((simHistory Ex.ext Ex.ratI (Ex.worded "level" "h_y" (some 0) (some 1))).sims.map fun o => (o.output, o.status)) = [(some (.dict [("y_m", 2), ("x_m", 1)]), some 0)] ∧
    ((simHistory Ex.ext Ex.ratI (Ex.worded "level" "h_y" (some 0) (some 1))).w.qs.map fun q => (q.latex, q.upperBound)) ≠
      ((simHistory Ex.ext Ex.ratI (Ex.worded "" "" none none)).w.qs.map fun q => (q.latex, q.upperBound)) ∧
    (modelReport 0 (simHistory Ex.ext Ex.ratI (Ex.worded "level" "h_y" (some 0) (some 1))).w).1.toOption.map (List.map (·.description)) = some ["level", "level"]) := by
  exact ⟨rfl, by decide +kernel⟩

end Sloth
