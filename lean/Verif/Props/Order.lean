import Verif.Props.Several
import Mathlib.Data.List.Perm.Basic
import Mathlib.Data.List.Perm.Lattice
import Mathlib.Data.List.Dedup

/-!
# C95: the order in which models are added
-/

namespace Sloth
open PyM

/-! ## Lists and dictionaries -/

theorem findSome_perm {α β : Type} {f : α → Option β} {l l' : List α} (h : l.Perm l') (hp : l.Pairwise fun a b => f a = none ∨ f b = none) :
    l.findSome? f = l'.findSome? f := by
  induction h with
  | nil => rfl
  | cons x h ih =>
    simp only [List.findSome?_cons]
    cases f x with
    | none => exact ih (List.pairwise_cons.mp hp).2
    | some b => rfl
  | swap x y l =>
    simp only [List.findSome?_cons]
    have := (List.pairwise_cons.mp hp).1 x (by simp)
    rcases this with h | h <;> rw [h] <;> simp
  | trans h1 h2 ih1 ih2 =>
    exact (ih1 hp).trans (ih2 ((h1.pairwise_iff (fun {a b} h => h.symm)).mp hp))

/-- Two dictionaries that answer every question alike have the same entries. -/
theorem dict_perm {α β : Type} [DecidableEq α] {d e : Dict α β} (hd : DNodup d) (he : DNodup e) (h : ∀ k, dget d k = dget e k) : d.Perm e := by
  refine (List.perm_ext_iff_of_nodup (List.Nodup.of_map _ hd) (List.Nodup.of_map _ he)).mpr fun p => ⟨fun hp => ?_, fun hp => ?_⟩
  · exact mem_of_dget ((h p.1).symm.trans (dget_of_mem hd hp))
  · exact mem_of_dget ((h p.1).trans (dget_of_mem he hp))

theorem foldlM_ok_iff {α γ : Type} {f : γ → α → Except Err γ} {P : α → Prop} (hf : ∀ g a, (∃ g', f g a = .ok g') ↔ P a) (l : List α) (g : γ) :
    (∃ g', l.foldlM f g = .ok g') ↔ ∀ a ∈ l, P a := by
  induction l generalizing g with
  | nil => simp [pure, Except.pure]
  | cons a t ih =>
    simp only [List.foldlM_cons, List.mem_cons, forall_eq_or_imp, bind_eq_ok]
    constructor
    · rintro ⟨g', g1, h1, h2⟩
      exact ⟨(hf g a).mp ⟨g1, h1⟩, (ih g1).mp ⟨g', h2⟩⟩
    · rintro ⟨h1, h2⟩
      obtain ⟨g1, h1⟩ := (hf g a).mpr h1
      obtain ⟨g2, h2⟩ := (ih g1).mpr h2
      exact ⟨g2, g1, h1, h2⟩

theorem Gather.obj_ok_iff {qs : List Quantity} (g : Gather) (r : Ref) : (∃ g', g.obj qs r = .ok g') ↔ ∃ q, qs[r]? = some q := by
  unfold Gather.obj
  cases qs[r]? with
  | none => simp
  | some q =>
    simp only [Option.some.injEq, exists_eq', iff_true]
    split
    · exact ⟨_, rfl⟩
    · split <;> exact ⟨_, rfl⟩

theorem Gather.eqn_ok_iff {w : World} (g : Gather) (r : ERef) :
    (∃ g', g.eqn w r = .ok g') ↔ ∃ e d, w.es[r]? = some e ∧ e.objects = some d ∧ ∀ x ∈ dvalues d, ∃ q, w.qs[x]? = some q := by
  unfold Gather.eqn
  cases he : w.es[r]? with
  | none => simp
  | some e =>
    simp only [Option.some.injEq]
    cases ho : e.objects with
    | none => simp only [reduceCtorEq, exists_false, false_iff]; rintro ⟨e', d, rfl, h, _⟩; simp [ho] at h
    | some d =>
      simp only
      rw [foldlM_ok_iff Gather.obj_ok_iff]
      exact ⟨fun h => ⟨e, d, rfl, ho, h⟩, by rintro ⟨e', d', rfl, h, h'⟩; rw [ho] at h; cases h; exact h'⟩

theorem Gather.model_ok_iff {w : World} (g : Gather) (m : MRef) :
    (∃ g', g.model w m = .ok g') ↔ ∃ mo, w.ms[m]? = some mo ∧ ∀ r ∈ dvalues mo.eqns, ∃ e d, w.es[r]? = some e ∧ e.objects = some d ∧
      ∀ x ∈ dvalues d, ∃ q, w.qs[x]? = some q := by
  unfold Gather.model
  cases hm : w.ms[m]? with
  | none => simp
  | some mo =>
    simp only [Option.some.injEq, exists_eq_left']
    exact foldlM_ok_iff Gather.eqn_ok_iff _ _

/-- The sweep succeeds in one order when it succeeds in another. -/
theorem gather_perm {w : World} {l l' : List MRef} (h : l.Perm l') {g g0 : Gather} (hg : l.foldlM (Gather.model w) g0 = .ok g) :
    ∃ g', l'.foldlM (Gather.model w) g0 = .ok g' := by
  rw [foldlM_ok_iff Gather.model_ok_iff]
  have := (foldlM_ok_iff Gather.model_ok_iff l g0).mp ⟨g, hg⟩
  exact fun a ha => this a (h.mem_iff.mpr ha)

theorem getEquationList_cons_iff {es : List EqObj} {form : Option EqForm} {side : EqObj.Side} {r : ERef} {t : List ERef} {ss : List SObj} :
    Block.getEquationList es form side (r :: t) = .ok ss ↔
      ∃ e s l, es[r]? = some e ∧ e.symbolicObject form side = .ok s ∧ Block.getEquationList es form side t = .ok l ∧ ss = s :: l := by
  conv_lhs => unfold Block.getEquationList
  cases he : es[r]? with
  | none => simp
  | some e =>
    simp only [bind_eq_ok, Except.ok.injEq, Option.some.injEq]
    constructor
    · rintro ⟨s, h1, l, h2, rfl⟩; exact ⟨e, s, l, rfl, h1, h2, rfl⟩
    · rintro ⟨e', s, l, rfl, h1, h2, rfl⟩; exact ⟨s, h1, l, h2, rfl⟩

theorem getEquationList_perm {es : List EqObj} {form : Option EqForm} {side : EqObj.Side} {l l' : List ERef} (h : l.Perm l') {ss : List SObj}
    (hs : Block.getEquationList es form side l = .ok ss) : ∃ ss', Block.getEquationList es form side l' = .ok ss' ∧ ss.Perm ss' := by
  induction h generalizing ss with
  | nil => exact ⟨ss, hs, .refl _⟩
  | cons x h ih =>
    rw [getEquationList_cons_iff] at hs
    obtain ⟨e, s, l1, h0, h1, h2, rfl⟩ := hs
    obtain ⟨l2, h3, h4⟩ := ih h2
    exact ⟨s :: l2, getEquationList_cons_iff.mpr ⟨e, s, l2, h0, h1, h3, rfl⟩, h4.cons s⟩
  | swap x y l =>
    rw [getEquationList_cons_iff] at hs
    obtain ⟨e, s, l1, h0, h1, h2, rfl⟩ := hs
    rw [getEquationList_cons_iff] at h2
    obtain ⟨e', s', l2, h0', h1', h2', rfl⟩ := h2
    exact ⟨s' :: s :: l2, getEquationList_cons_iff.mpr ⟨e', s', _, h0', h1', getEquationList_cons_iff.mpr ⟨e, s, l2, h0, h1, h2', rfl⟩, rfl⟩,
      List.Perm.swap _ _ _⟩
  | trans h1 h2 ih1 ih2 =>
    obtain ⟨l1, h3, h4⟩ := ih1 hs
    obtain ⟨l2, h5, h6⟩ := ih2 h3
    exact ⟨l2, h5, h4.trans h6⟩

/-! ## Adding models -/

/-- No two of the models have a name in common, nor do their variables, nor their parameters. -/
def Spec.Apart (w : World) (l : List MRef) : Prop :=
  l.Pairwise fun a b => ∀ ma mb, w.ms[a]? = some ma → w.ms[b]? = some mb →
    ma.name ≠ mb.name ∧ (∀ k ∈ dkeys ma.vars, k ∉ dkeys mb.vars) ∧ ∀ k ∈ dkeys ma.pars, k ∉ dkeys mb.pars

/-- Two problems differ only in the order of their models, variables and parameters. -/
structure Spec.Shuffled (p p' : ProblemObj) : Prop where
  models : p.models.Perm p'.models
  vars : p.variableDict.Perm p'.variableDict
  pars : p.parameterDict.Perm p'.parameterDict
  rest : p' = { p with models := p'.models, variableDict := p'.variableDict, parameterDict := p'.parameterDict }

theorem last_perm {β : Type} {w : World} {f : ModelObj → Dict String β} {l l' : List MRef} (h : l.Perm l')
    (hp : l.Pairwise fun a b => ∀ ma mb, w.ms[a]? = some ma → w.ms[b]? = some mb → ∀ k ∈ dkeys (f ma), k ∉ dkeys (f mb)) (k : String) :
    Spec.last w f k l = Spec.last w f k l' := by
  unfold Spec.last
  refine findSome_perm (((List.reverse_perm l).trans h).trans (List.reverse_perm l').symm) ?_
  rw [List.pairwise_reverse]
  refine hp.imp fun {a b} hab => ?_
  cases ha : w.ms[a]? with
  | none => exact .inr rfl
  | some ma =>
    cases hb : w.ms[b]? with
    | none => exact .inl rfl
    | some mb =>
      simp only [Option.bind_some]
      by_cases hk : k ∈ dkeys (f ma)
      · exact .inl ((dget_eq_none_iff _ _).mpr (hab ma mb ha hb k hk))
      · exact .inr ((dget_eq_none_iff _ _).mpr hk)

theorem lastNamed_perm {w : World} {l l' : List MRef} (h : l.Perm l')
    (hp : l.Pairwise fun a b => ∀ ma mb, w.ms[a]? = some ma → w.ms[b]? = some mb → ma.name ≠ mb.name) (k : String) :
    Spec.lastNamed w k l = Spec.lastNamed w k l' := by
  unfold Spec.lastNamed
  rw [List.find?_eq_findSome?_guard, List.find?_eq_findSome?_guard]
  refine findSome_perm (((List.reverse_perm l).trans h).trans (List.reverse_perm l').symm) ?_
  rw [List.pairwise_reverse]
  refine hp.imp fun {a b} hab => ?_
  simp only [Option.guard_eq_none_iff]
  cases ha : w.ms[a]? with
  | none => exact .inr (by simp)
  | some ma =>
    cases hb : w.ms[b]? with
    | none => exact .inl (by simp)
    | some mb =>
      have := hab ma mb ha hb
      by_cases hk : ma.name = k
      · refine .inl ?_
        have : mb.name ≠ k := fun h => this (hk.trans h.symm)
        simp [this]
      · exact .inr (by simp [hk])

theorem reachable_addModels {w : World} (hr : Reachable w) (t : MTree) : Reachable (addModels t w).2 := by
  obtain ⟨ops, rfl⟩ := hr
  exact ⟨ops ++ [.addModels t], by simp [history, Op.run]⟩

/-- Adding models that are apart in another order shuffles the problem. -/
theorem addModels_order {w : World} (hr : Reachable w) (t t' : MTree) (hperm : (Spec.leaves t).Perm (Spec.leaves t'))
    (ht : ∀ m ∈ Spec.leaves t, m < w.ms.length) (ha : Spec.Apart w (Spec.leaves t)) :
    ∃ p p', addModels t w = (.ok (), { w with pr := p }) ∧ addModels t' w = (.ok (), { w with pr := p' }) ∧ Spec.Shuffled p p' := by
  have ht' : ∀ m ∈ Spec.leaves t', m < w.ms.length := fun m hm => ht m (hperm.mem_iff.mpr hm)
  obtain ⟨vd, pd, md, h1, h2, h3, h4⟩ := addModel_each (reachable_wf hr) (Spec.leaves t) ht
  obtain ⟨vd', pd', md', k1, k2, k3, k4⟩ := addModel_each (reachable_wf hr) (Spec.leaves t') ht'
  rw [← addModels_each] at h1 k1
  have hw := reachable_problem (reachable_addModels hr t)
  have kw := reachable_problem (reachable_addModels hr t')
  rw [h1] at hw
  rw [k1] at kw
  refine ⟨_, _, h1, k1, ?_, ?_, ?_, rfl⟩
  · refine dict_perm hw.models.1 kw.models.1 fun k => ?_
    simp only [h4, k4]
    rw [lastNamed_perm hperm (ha.imp fun {a b} h ma mb h1 h2 => (h ma mb h1 h2).1)]
  · refine dict_perm hw.vars.1 kw.vars.1 fun k => ?_
    simp only [h2, k2]
    rw [last_perm hperm (ha.imp fun {a b} h ma mb h1 h2 => (h ma mb h1 h2).2.1)]
  · refine dict_perm hw.pars.1 kw.pars.1 fun k => ?_
    simp only [h3, k3]
    rw [last_perm hperm (ha.imp fun {a b} h ma mb h1 h2 => (h ma mb h1 h2).2.2)]

/-! ## Resolving -/

/-- Two blocks state the same system, in another order. -/
structure Spec.SameSystem (b b' : Block) : Prop where
  equations : b.equations.Perm b'.equations
  expressions : b.equationsList.Perm b'.equationsList
  vars : b.variableDict.Perm b'.variableDict
  pars : b.parameterDict.Perm b'.parameterDict
  names : b.varList.Perm b'.varList
  linear : b.linear.Perm b'.linear
  nonlinear : b.nonlinear.Perm b'.nonlinear
  differential : b.differential.Perm b'.differential
  tail : b.linearTail = b'.linearTail

theorem isEmpty_perm {α : Type} {l l' : List α} (h : l.Perm l') : l.isEmpty = l'.isEmpty := by
  rw [Bool.eq_iff_iff, List.isEmpty_iff, List.isEmpty_iff]
  exact ⟨fun e => by rw [e] at h; exact h.nil_eq.symm, fun e => by rw [e] at h; exact h.eq_nil⟩

theorem Spec.SameSystem.problemType {b b' : Block} (h : Spec.SameSystem b b') : b.problemType = b'.problemType := by
  unfold Block.problemType
  rw [isEmpty_perm h.linear, isEmpty_perm h.nonlinear, isEmpty_perm h.differential, h.tail]

theorem any_perm {α : Type} {f : α → Bool} {l l' : List α} (h : l.Perm l') : l.any f = l'.any f := by
  rw [Bool.eq_iff_iff, List.any_eq_true, List.any_eq_true]
  exact ⟨fun ⟨x, hx, hf⟩ => ⟨x, h.mem_iff.mp hx, hf⟩, fun ⟨x, hx, hf⟩ => ⟨x, h.mem_iff.mpr hx, hf⟩⟩

theorem all_perm {α : Type} {f : α → Bool} {l l' : List α} (h : l.Perm l') : l.all f = l'.all f := by
  rw [Bool.eq_iff_iff, List.all_eq_true, List.all_eq_true]
  exact ⟨fun hf x hx => hf x (h.mem_iff.mpr hx), fun hf x hx => hf x (h.mem_iff.mp hx)⟩

theorem Spec.SameSystem.timeDeclared {b b' : Block} (h : Spec.SameSystem b b') (sr : SRepr) (es : List EqObj) (n : Option (List String)) :
    Sloth.timeDeclared sr es b n = Sloth.timeDeclared sr es b' n := by
  cases n with
  | none => simp only [Sloth.timeDeclared]; rw [all_perm h.differential]
  | some l => simp only [Sloth.timeDeclared]; rw [any_perm h.differential]

theorem namesOf_perm {qs : List Quantity} {k : Kind} {l l' : List Ref} {s : String} (h : l.Perm l') : NamesOf qs k l s ↔ NamesOf qs k l' s :=
  ⟨fun ⟨r, hr, hq⟩ => ⟨r, h.mem_iff.mp hr, hq⟩, fun ⟨r, hr, hq⟩ => ⟨r, h.mem_iff.mpr hr, hq⟩⟩

theorem unspecParams_perm {qs : List Quantity} {d d' : Dict String Ref} (h : d.Perm d') : unspecParams qs d = unspecParams qs d' := by
  unfold unspecParams
  exact ((h.map _).filter _).length_eq

/-- A problem shuffled is resolved to the same system. -/
theorem resolve_order {w w1 : World} {p p' : ProblemObj} (hs : Spec.Shuffled p p') (hb : ∀ m ∈ dvalues p.models, Spec.Bare w m)
    (h : resolve { w with pr := p } = (.ok (), w1)) :
    ∃ b b' l l', w1 = { w with pr := { p with equationList := some l, block := some b } } ∧
      resolve { w with pr := p' } = (.ok (), { w with pr := { p' with equationList := some l', block := some b' } }) ∧ l.Perm l' ∧
      Spec.SameSystem b b' := by
  have hv : (dvalues p.models).Perm (dvalues p'.models) := hs.models.map _
  obtain ⟨w2, g, b, h1, -, h2, h3, h4, h5⟩ := resolve_ok h
  rw [show reloadModels ({ w with pr := p } : World) = (.ok (), { w with pr := p }) from calls_bare hb] at h1
  cases h1
  obtain ⟨g', k2⟩ := gather_perm hv h2
  have hg := Gather.gather h2
  have hr' : reloadModels ({ w with pr := p' } : World) = (.ok (), { w with pr := p' }) :=
    calls_bare (fun m hm => hb m (hv.mem_iff.mpr hm))
  have k2' : (dvalues ({ w with pr := p' } : World).pr.models).foldlM (Gather.model ({ w with pr := p' } : World)) {} = .ok g' := k2
  have kg := Gather.gather k2'
  have he : g.eqs.Perm g'.eqs := by
    rw [hg.1, kg.1]
    exact hv.flatMap_right _
  obtain ⟨ss', k4, kp⟩ := getEquationList_perm he h4
  have ho : (((dvalues p.models).flatMap (Gather.eqnsOf w)).flatMap (Gather.objsOf w)).Perm
      (((dvalues p'.models).flatMap (Gather.eqnsOf w)).flatMap (Gather.objsOf w)) := (hv.flatMap_right _).flatMap_right _
  have hn : ∀ s, g.varNames.contains s = g'.varNames.contains s := fun s => by
    rw [Bool.eq_iff_iff, List.contains_iff_mem, List.contains_iff_mem, hg.2.1, kg.2.1]
    exact namesOf_perm ho
  have hn' : ∀ s, g.parNames.contains s = g'.parNames.contains s := fun s => by
    rw [Bool.eq_iff_iff, List.contains_iff_mem, List.contains_iff_mem, hg.2.2, kg.2.2]
    exact namesOf_perm ho
  have hvd : (p.variableDict.filter fun x => g.varNames.contains x.1).Perm (p'.variableDict.filter fun x => g'.varNames.contains x.1) := by
    simp only [hn]; exact hs.vars.filter _
  have hpd : (p.parameterDict.filter fun x => g.parNames.contains x.1).Perm (p'.parameterDict.filter fun x => g'.parNames.contains x.1) := by
    simp only [hn']; exact hs.pars.filter _
  refine ⟨b, Block.resolved w.es g'.eqs (p'.variableDict.filter fun x => g'.varNames.contains x.1)
    (p'.parameterDict.filter fun x => g'.parNames.contains x.1) ss', g.eqs, g'.eqs, h3, ?_, he, ?_⟩
  · unfold resolve
    rw [PyM.bind_of_ok hr', PyM.bind_of_ok (by unfold buildEquationBlock; rw [k2'])]
    unfold callBlock
    simp only [Block.call, Block.mk', Block.assignGroups]
    have k4' : Block.getEquationList w.es none .rhs g'.eqs = .ok ss' := k4
    rw [k4']
    rfl
  · rw [h5]
    exact ⟨he, kp, hvd, hpd, hvd.map _, he.filter _, he.filter _, he.filter _, rfl⟩

/-- C95: models that are apart can be added in any order and grouping.  When the problem resolves in one order it resolves in the other, the block holds
the same equations, expressions, variables, parameters and groups in another order, the problem is of the same type, and the test of the degrees of
freedom has the same outcome. -/
theorem model_order_partial {w w1 : World} (hr : Reachable w) (t t' : MTree) (hperm : (Spec.leaves t).Perm (Spec.leaves t'))
    (ht : ∀ m ∈ Spec.leaves t, m < w.ms.length) (ha : Spec.Apart w (Spec.leaves t))
    (hb : ∀ m, m ∈ dvalues w.pr.models ∨ m ∈ Spec.leaves t → Spec.Bare w m)
    (h : (addModels t >>= fun _ => resolve) w = (.ok (), w1)) :
    ∃ w2 b b', (addModels t' >>= fun _ => resolve) w = (.ok (), w2) ∧ w2.qs = w1.qs ∧ w2.es = w1.es ∧ w2.ms = w1.ms ∧
      w1.pr.block = some b ∧ w2.pr.block = some b' ∧ Spec.SameSystem b b' ∧ b.problemType = b'.problemType ∧
      ∀ sr, (dofTest sr w1).1 = (dofTest sr w2).1 := by
  obtain ⟨p, p', h1, h2, h3⟩ := addModels_order hr t t' hperm ht ha
  rw [PyM.bind_of_ok h1] at h
  have hbp : ∀ m ∈ dvalues p.models, Spec.Bare w m := fun m hm => by
    obtain ⟨x, hx, rfl⟩ := List.mem_map.mp hm
    have hpw := reachable_problem (reachable_addModels hr t)
    rw [h1] at hpw
    have hd := dget_of_mem hpw.models.1 (k := x.1) (v := x.2) hx
    obtain ⟨vd, pd, md, k1, -, -, k4⟩ := addModel_each (reachable_wf hr) (Spec.leaves t) ht
    rw [← addModels_each, h1] at k1
    have : p.models = md := congrArg (fun x => x.2.pr.models) k1
    rw [this, k4, Option.or_eq_some_iff] at hd
    refine hb _ ?_
    rcases hd with hd | ⟨-, hd⟩
    · exact .inr (List.mem_reverse.mp (List.mem_of_find?_eq_some hd))
    · exact .inl (List.mem_map.mpr ⟨_, mem_of_dget hd, rfl⟩)
  obtain ⟨b, b', l, l', k1, k2, -, k4⟩ := resolve_order h3 hbp h
  have hn : p'.timeName = p.timeName := by rw [h3.rest]
  subst k1
  refine ⟨{ w with pr := { p' with equationList := some l', block := some b' } }, b, b', by rw [PyM.bind_of_ok h2]; exact k2, rfl, rfl, rfl, rfl, rfl, k4, k4.problemType, fun sr => ?_⟩
  unfold dofTest
  simp only
  rw [hn, ← k4.timeDeclared, ← k4.names.length_eq, ← k4.expressions.length_eq, ← unspecParams_perm k4.pars]
  split
  · rfl
  · split <;> rfl

/-- Two models, each with everything declared from outside. -/
def Ex.twoApart : List Op := [.newModel "a" "" {} none, .cmd 0 (Ex.dv "x"), .cmd 0 (Ex.dp "p"), .cmd 0 (Ex.eq_ "e" (.eqn (Ex.at_ "x") (Ex.at_ "p"))),
  .newModel "b" "" {} none, .cmd 1 (Ex.dv "y"), .cmd 1 (Ex.eq_ "e" (.eqn (.bin .mul (Ex.at_ "y") (Ex.at_ "y")) (Ex.at_ "y")))]

example : ∃ w1, Reachable (history Ex.twoApart World.init) ∧ (Spec.leaves (.list [.leaf 0, .leaf 1])).Perm (Spec.leaves (.list [.leaf 1, .list [.leaf 0]])) ∧
    (∀ m ∈ Spec.leaves (.list [.leaf 0, .leaf 1]), m < (history Ex.twoApart World.init).ms.length) ∧
    Spec.Apart (history Ex.twoApart World.init) (Spec.leaves (.list [.leaf 0, .leaf 1])) ∧
    (∀ m, m ∈ dvalues (history Ex.twoApart World.init).pr.models ∨ m ∈ Spec.leaves (.list [.leaf 0, .leaf 1]) → Spec.Bare (history Ex.twoApart World.init) m) ∧
    (addModels (.list [.leaf 0, .leaf 1]) >>= fun _ => resolve) (history Ex.twoApart World.init) = (.ok (), w1) := by
  refine ⟨_, ⟨_, rfl⟩, List.Perm.swap _ _ _, by decide +kernel, ?_, ?_, run_ok (by decide +kernel)⟩
  · have h : ((history Ex.twoApart World.init).ms.map fun mo => (mo.name, dkeys mo.vars, dkeys mo.pars)) =
      [("a", ["x_a"], ["p_a"]), ("b", ["y_b"], [])] := by decide +kernel
    refine List.pairwise_pair.mpr fun ma mb ha hb => ?_
    have ha' := congrArg (fun l => l[0]?) h
    have hb' := congrArg (fun l => l[1]?) h
    simp only [List.getElem?_map, ha, hb, Option.map_some, List.getElem?_cons_zero, List.getElem?_cons_succ, Option.some.injEq, Prod.mk.injEq] at ha' hb'
    rw [ha'.1, hb'.1, ha'.2.1, ha'.2.2, hb'.2.1, hb'.2.2]
    decide
  · have h : ((history Ex.twoApart World.init).ms.map fun mo => (mo.inlets, mo.body)) = [([], {}), ([], {})] := by decide +kernel
    have hp : dvalues (history Ex.twoApart World.init).pr.models = [] := by decide +kernel
    intro m hm
    rw [hp] at hm
    have hm : m = 0 ∨ m = 1 := by simpa [Spec.leaves, Spec.leavesList] using hm
    have hl : m < (history Ex.twoApart World.init).ms.length := by
      have : (history Ex.twoApart World.init).ms.length = 2 := by decide +kernel
      rw [this]
      rcases hm with rfl | rfl <;> decide
    obtain ⟨mo, hmo⟩ := exists_getElem? hl
    have := congrArg (fun l => l[m]?) h
    simp only [List.getElem?_map, hmo, Option.map_some] at this
    rcases hm with rfl | rfl <;>
    · simp only [List.getElem?_cons_zero, List.getElem?_cons_succ, Option.some.injEq, Prod.mk.injEq] at this
      exact ⟨mo, hmo, this.1, this.2⟩

theorem dof_algebraic {sr : SRepr} {w : World} {v p n : Nat}
    (h : (w.pr.block.map fun b => (b.differential, b.varList.length, unspecParams w.qs b.parameterDict, b.equationsList.length)) = some ([], v, p, n)) :
    Spec.Verdict (v + p) n (dofTest sr w).1 := by
  simp only [Option.map_eq_some_iff, Prod.mk.injEq] at h
  obtain ⟨b, hb, h1, rfl, rfl, rfl⟩ := h
  have ht : timeDeclared sr w.es b w.pr.timeName = .ok false := by
    cases w.pr.timeName <;> simp [timeDeclared, h1]
  exact (dofTest_verdict hb ht).2

/-- Two models with the same name. -/
def Ex.sameName : List Op := [.newModel "a" "" {} none, .cmd 0 (Ex.dv "x"), .cmd 0 (Ex.eq_ "e" (.eqn (.bin .mul (Ex.at_ "x") (Ex.at_ "x")) (Ex.at_ "x"))),
  .newModel "a" "" {} none, .cmd 1 (Ex.dv "x"), .cmd 1 (Ex.dv "y"), .cmd 1 (Ex.eq_ "e" (.eqn (Ex.at_ "x") (Ex.at_ "y")))]

/-- C95 fails for models with a name in common: the first of them is dropped without notice, so that the order decides what is solved, and whether the test
of the degrees of freedom refuses it. -/
theorem model_order_matters : ∃ w w1 w2, Reachable w ∧ (addModels (.list [.leaf 0, .leaf 1]) >>= fun _ => resolve) w = (.ok (), w1) ∧
    (addModels (.list [.leaf 1, .leaf 0]) >>= fun _ => resolve) w = (.ok (), w2) ∧
    (∀ sr, (dofTest sr w1).1 = .error (.exception "UNDER")) ∧ ∀ sr, (dofTest sr w2).1 = .ok () := by
  refine ⟨history Ex.sameName World.init, _, _, ⟨_, rfl⟩, run_ok (by decide +kernel), run_ok (by decide +kernel), fun sr => ?_, fun sr => ?_⟩
  · exact (dof_algebraic (v := 2) (p := 0) (n := 1) (by decide +kernel)).under.mpr (by decide)
  · exact (dof_algebraic (v := 1) (p := 0) (n := 1) (by decide +kernel)).square.mpr rfl

end Sloth
