import Verif.Lemmas.EqInv
import Verif.Props.Connections

/-!
# Properties of equation blocks and of the degree-of-freedom test (C34-C37, C49)
-/

namespace Sloth
open PyM UnitObj

/-! Sample sessions. -/
namespace Ex
def dv (s : String) : Cmd := .var s { name := s, units := Tmpl.dimless }
def dp (s : String) : Cmd := .par s { name := s, units := Tmpl.dimless }
def at_ (s : String) : AExpr := .q { attr := s }
def eq_ (s : String) (st : AStmt) : Cmd := .eqn s s "" st true
/-- A model with unknowns `x`, `y` and the equations `x + y - 3` and `x*y - 2`. -/
def alg : List Op := [.newModel "m" "" {} none, .cmd 0 (dv "x"), .cmd 0 (dv "y"),
  .cmd 0 (eq_ "sum" (.res (.binN .sub (.bin .add (at_ "x") (at_ "y")) 3))), .cmd 0 (eq_ "prod" (.res (.binN .sub (.bin .mul (at_ "x") (at_ "y")) 2))),
  .addModels (.list [.leaf 0])]
/-- The same with a differential equation for `z`, and a parameter without value. -/
def dae : List Op := [.newModel "m" "" {} none, .cmd 0 (dv "x"), .cmd 0 (dv "y"), .cmd 0 (dv "z"), .cmd 0 (dv "t"), .cmd 0 (dp "p"),
  .cmd 0 (.distribute { attr := "z" }),
  .cmd 0 (eq_ "sum" (.res (.binN .sub (.bin .add (at_ "x") (at_ "y")) 3))), .cmd 0 (eq_ "prod" (.res (.bin .sub (.bin .mul (at_ "x") (at_ "y")) (at_ "p")))),
  .cmd 0 (eq_ "ode" (.eqn (.diff { attr := "z" } (some { attr := "t" })) (.bin .mul (at_ "x") (at_ "t")))),
  .addModels (.leaf 0), .time ["t_m"]]
/-- The texts SymPy gives for the operands of sums and products of symbols and whole numbers. -/
def txt : Sym → String
  | .atom (.v n) => "Symbol('" ++ n ++ "')"
  | .atom (.d x t) => "Derivative(Symbol('" ++ x ++ "'), Tuple(Symbol('" ++ t ++ "'), Integer(1)))"
  | .num q => "Integer(" ++ toString q.num ++ ")"
  | _ => ""
def sr : SRepr := fun s => match s.expr with
  | .add a b | .mul a b => [txt a, txt b]
  | _ => []
end Ex

/-! ## Sessions in which equations are written as expressions -/

/-- Every equation given is what an expression of the language, or an equality of two, evaluates to. -/
def Spec.written : Allow := { arg := fun a => ∃ st : Stmt, st.arg = .ok a }

/-- A session of such calls. -/
def Spec.Session (ops : List Op) : Prop := ∀ o ∈ ops, o.Allowed Spec.written

/-- The equation's kind is the only flag of its residual. -/
def EqObj.Typed (e : EqObj) : Prop := ∃ n, e.expr = some n ∧ n.ty.One ∧ e.type = EqObj.kindOf n.ty

theorem EqObj.convert_keeps {e e' : EqObj} {names : Dict String String} {whole : Dict String Ref} (h : e.convert names whole = .ok e') :
    ∃ n n', e.expr = some n ∧ e'.expr = some n' ∧ n'.ty = n.ty ∧ e'.type = e.type := by
  unfold EqObj.convert at h
  cases hx : e.expr with
  | none => simp [hx] at h
  | some n =>
    simp only [hx, EqObj.convertNode, bind_eq_ok] at h
    obtain ⟨s, _, el, _, mp, _, h⟩ := h
    obtain ⟨k, hk, rfl⟩ := EqObj.sweep_ok h
    simp only [Option.some.injEq] at hk
    subst hk
    exact ⟨n, _, rfl, rfl, rfl, rfl⟩

theorem Stmt.residual_typed (st : Stmt) {t : String} {e0 e : EqObj} {a : ResArg} (ha : st.arg = .ok a) (h : e0.setResidual t a = (.ok (), e)) :
    e.Typed := by
  obtain ⟨n, k, hn, hk, h1, h2, h3, _⟩ := equation_kind st t e0 e ha h
  obtain ⟨n', hn', ht⟩ := EqObj.setResidual_ok (tag := t) (e := e0) (a := a) (by rw [h])
  rw [h] at hn' ht
  simp only [hn, Option.some.injEq] at hn'
  subst hn'
  refine ⟨n, hn, ?_, ht⟩
  unfold EqType.One
  have c : ∀ b : Bool, (False ↔ b = true) → b = false := by decide
  cases k with
  | linear => exact Or.inl ⟨h1.mp rfl, c _ (by simpa using h2), c _ (by simpa using h3)⟩
  | nonlinear => exact Or.inr (Or.inl ⟨c _ (by simpa using h1), h2.mp rfl, c _ (by simpa using h3)⟩)
  | differential => exact Or.inr (Or.inr ⟨c _ (by simpa using h1), c _ (by simpa using h2), h3.mp rfl⟩)

/-- In such a session every equation is typed. -/
theorem typed_stable : Stable Spec.written (fun w w' => (∀ e ∈ w.es, e.Typed) → ∀ e ∈ w'.es, e.Typed) :=
  (eqInv_elem Spec.written EqObj.Typed (fun st a h => ⟨st, h⟩)
    (fun t e0 e a n o d ⟨st, hst⟩ _ h => by
      obtain ⟨m, h1, h2, h3⟩ := st.residual_typed hst h
      exact ⟨m, h1, h2, h3⟩)
    (fun fl _ _ e e' n o names whole ⟨m, h1, h2, h3⟩ h => by
      obtain ⟨k, k', g1, g2, g3, g4⟩ := EqObj.convert_keeps h
      simp only at g1 g4
      rw [h1] at g1; cases g1
      exact ⟨k', g2, g3 ▸ h2, by rw [g4, h3, g3]⟩)).stable trivial

theorem session_typed {ops : List Op} (h : Spec.Session ops) : ∀ e ∈ (history ops World.init).es, e.Typed :=
  typed_stable.history ops h World.init (by simp [World.init])

/-- `resolve` as the last call. -/
theorem history_resolve (ops : List Op) {w w' : World} (h : resolve (history ops w) = (.ok (), w')) :
    w' = history (ops ++ [.resolve]) w := by
  simp [history, List.foldl_append, Op.run] at h ⊢
  rw [h]

theorem Spec.Session.resolve {ops : List Op} (h : Spec.Session ops) : Spec.Session (ops ++ [.resolve]) := by
  intro o ho
  simp only [List.mem_append, List.mem_singleton] at ho
  rcases ho with ho | rfl
  · exact h o ho
  · trivial

/-- The equations of the problem's models, model by model. -/
def Spec.Equations (w : World) (l : List ERef) : Prop :=
  ∃ ls : List (List ERef), l = ls.flatten ∧ List.Forall₂ (fun m l => ∃ mo, w.ms[m]? = some mo ∧ l = dvalues mo.eqns) (dvalues w.pr.models) ls

/-- The flag of a kind. -/
def Spec.flag : EqKind → EqType → Bool
  | .linear, t => t.linear
  | .nonlinear, t => t.nonlinear
  | .differential, t => t.differential

/-- The equation's residual has this flag. -/
def Spec.OfKind (es : List EqObj) (k : EqKind) (r : ERef) : Prop := ∃ e n, es[r]? = some e ∧ e.expr = some n ∧ Spec.flag k n.ty = true

theorem EqType.One.kind {t : EqType} (h : t.One) (k : EqKind) : EqObj.kindOf t = some k ↔ Spec.flag k t = true := by
  rcases h with ⟨h1, h2, h3⟩ | ⟨h1, h2, h3⟩ | ⟨h1, h2, h3⟩ <;> cases k <;> simp [EqObj.kindOf, Spec.flag, h1, h2, h3]

theorem EqType.One.some {t : EqType} (h : t.One) : ∃ k, EqObj.kindOf t = some k := by
  rcases h with ⟨h1, h2, h3⟩ | ⟨h1, h2, h3⟩ | ⟨h1, h2, h3⟩ <;> simp [EqObj.kindOf, h1, h2, h3]

/-! ## C34 -/

/-- Typed equations. -/
def Spec.AllTyped (es : List EqObj) (eqs : List ERef) : Prop := ∀ r ∈ eqs, ∃ e, es[r]? = some e ∧ e.Typed

theorem mem_group {es : List EqObj} {eqs : List ERef} (h : Spec.AllTyped es eqs) (k : EqKind) (r : ERef) :
    r ∈ Block.group es k eqs ↔ r ∈ eqs ∧ Spec.OfKind es k r := by
  unfold Block.group
  rw [List.mem_filter]
  refine and_congr_right fun hr => ?_
  obtain ⟨e, he, n, hn, h1, ht⟩ := h r hr
  simp only [he, beq_iff_eq, ht, h1.kind]
  refine ⟨fun h => ⟨e, n, he, hn, h⟩, ?_⟩
  rintro ⟨e', n', he', hn', hf⟩
  rw [he] at he'; cases he'
  rw [hn] at hn'; cases hn'
  exact hf

theorem ofKind_unique {es : List EqObj} {eqs : List ERef} (h : Spec.AllTyped es eqs) {r : ERef} (hr : r ∈ eqs) : ∃! k, Spec.OfKind es k r := by
  obtain ⟨e, he, n, hn, h1, ht⟩ := h r hr
  obtain ⟨k, hk⟩ := h1.some
  refine ⟨k, ⟨e, n, he, hn, (h1.kind k).mp hk⟩, ?_⟩
  rintro k' ⟨e', n', he', hn', hf⟩
  rw [he] at he'; cases he'
  rw [hn] at hn'; cases hn'
  have := (h1.kind k').mpr hf
  rw [hk] at this; cases this; rfl

theorem groups_perm {es : List EqObj} {eqs : List ERef} (h : Spec.AllTyped es eqs) :
    (Block.group es .linear eqs ++ Block.group es .nonlinear eqs ++ Block.group es .differential eqs).Perm eqs := by
  induction eqs with
  | nil => simp [Block.group]
  | cons r t ih =>
    have ih := ih fun r hr => h r (by simp [hr])
    obtain ⟨e, he, n, hn, h1, ht⟩ := h r (by simp)
    obtain ⟨k, hk⟩ := h1.some
    rw [hk] at ht
    have key : ∀ k', Block.group es k' (r :: t) = if k = k' then r :: Block.group es k' t else Block.group es k' t := by
      intro k'
      unfold Block.group
      rw [List.filter_cons]
      simp [he, ht]
    rw [key, key, key]
    cases k
    · simpa using ih
    · simp only [reduceCtorEq, if_false, if_true, List.append_assoc, List.cons_append] at ih ⊢
      exact List.perm_middle.trans (List.Perm.cons r ih)
    · simp only [reduceCtorEq, if_false, if_true] at ih ⊢
      exact List.perm_middle.trans (List.Perm.cons r ih)

/-- What the three groups have to be. -/
structure Spec.Partition (es : List EqObj) (b : Block) : Prop where
  /-- in the original order -/
  linearSub : b.linear.Sublist b.equations
  nonlinearSub : b.nonlinear.Sublist b.equations
  differentialSub : b.differential.Sublist b.equations
  /-- nothing lost, nothing doubled -/
  perm : (b.linear ++ b.nonlinear ++ b.differential).Perm b.equations
  /-- the groups hold equations and nothing else -/
  tail : b.linearTail = []
  /-- every equation is of exactly one kind -/
  one : ∀ r ∈ b.equations, ∃! k, Spec.OfKind es k r
  /-- and in the group of this kind -/
  linear : ∀ r, r ∈ b.linear ↔ r ∈ b.equations ∧ Spec.OfKind es .linear r
  nonlinear : ∀ r, r ∈ b.nonlinear ↔ r ∈ b.equations ∧ Spec.OfKind es .nonlinear r
  differential : ∀ r, r ∈ b.differential ↔ r ∈ b.equations ∧ Spec.OfKind es .differential r

/-- C34: a block built from any list of typed equations splits it into the three groups, in order, each equation in exactly one. -/
theorem groups_partition (es : List EqObj) (eqs : List ERef) (vd pd : Dict String Ref) (h : Spec.AllTyped es eqs) :
    (Block.mk' es eqs vd pd).equations = eqs ∧ Spec.Partition es (Block.mk' es eqs vd pd) where
  left := rfl
  right :=
    { linearSub := List.filter_sublist
      nonlinearSub := List.filter_sublist
      differentialSub := List.filter_sublist
      perm := groups_perm h
      tail := rfl
      one := fun r hr => ofKind_unique h hr
      linear := fun r => mem_group h .linear r
      nonlinear := fun r => mem_group h .nonlinear r
      differential := fun r => mem_group h .differential r }

/-- What a successful `resolve` leaves, seen from outside. -/
theorem resolved_block {w w' : World} (h : resolve w = (.ok (), w')) :
    ∃ b g, w'.pr.block = some b ∧ Gather.eqs g = b.equations ∧ w'.pr.models = w.pr.models ∧ w'.pr.variableDict = w.pr.variableDict ∧
      w'.pr.parameterDict = w.pr.parameterDict ∧ w'.pr.timeName = w.pr.timeName ∧
      (dvalues w'.pr.models).foldlM (Gather.model w') {} = .ok g ∧
      b = Block.assignGroups w'.es b ∧ b.variableDict = (w.pr.variableDict.filter fun p => g.varNames.contains p.1) ∧
      b.parameterDict = (w.pr.parameterDict.filter fun p => g.parNames.contains p.1) ∧ b.varList = dkeys b.variableDict ∧
      Block.getEquationList w'.es none .rhs b.equations = .ok b.equationsList := by
  obtain ⟨w1, g, b, h1, h2, h3, rfl, h5, h6⟩ := resolve_ok h
  refine ⟨b, g, rfl, by rw [h6]; rfl, by simp only [h2], by simp only [h2], by simp only [h2], by simp only [h2], ?_, ?_, ?_, ?_, ?_, ?_⟩
  · exact h3
  · conv_lhs => rw [h6]
    conv_rhs => rw [h6]
    rfl
  · rw [h6]; rfl
  · rw [h6]; rfl
  · rw [h6]; rfl
  · rw [show b.equations = g.eqs by rw [h6]; rfl]; exact h5

theorem gather_equations {w : World} {l : List ERef} {g : Gather} (h : (dvalues w.pr.models).foldlM (Gather.model w) {} = .ok g)
    (hl : g.eqs = l) : Spec.Equations w l := by
  have key : ∀ (ms : List MRef) (g g' : Gather), ms.foldlM (Gather.model w) g = .ok g' →
      List.Forall₂ (fun m l => ∃ mo, w.ms[m]? = some mo ∧ l = dvalues mo.eqns) ms (ms.map (Gather.eqnsOf w)) := by
    intro ms
    induction ms with
    | nil => intros; exact .nil
    | cons m t ih =>
      intro g g' h
      simp only [List.foldlM_cons, bind_eq_ok] at h
      obtain ⟨g1, h1, h2⟩ := h
      refine .cons ?_ (ih g1 g' h2)
      unfold Gather.model at h1
      unfold Gather.eqnsOf
      cases hm : w.ms[m]? with
      | none => simp [hm] at h1
      | some mo => exact ⟨mo, rfl, rfl⟩
  refine ⟨_, ?_, key _ _ _ h⟩
  rw [← hl, (Gather.gather h).1, List.flatMap_def]

theorem gather_typed {w : World} {g : Gather} (h : (dvalues w.pr.models).foldlM (Gather.model w) {} = .ok g)
    (ht : ∀ e ∈ w.es, e.Typed) (hw : w.WF) : Spec.AllTyped w.es g.eqs := by
  intro r hr
  rw [(Gather.gather h).1] at hr
  obtain ⟨m, _, hm⟩ := List.mem_flatMap.mp hr
  unfold Gather.eqnsOf at hm
  cases hmo : w.ms[m]? with
  | none => simp [hmo] at hm
  | some mo =>
    simp only [hmo] at hm
    obtain ⟨p, hp, rfl⟩ := List.mem_map.mp hm
    obtain ⟨e, he, _⟩ := (hw.ms m mo hmo).eqns.2 p hp
    exact ⟨e, he, ht e (List.mem_of_getElem? he)⟩

/-- C34 for the block of a problem: after `resolve` in any session of written equations, its equations are those of the problem's models, and
the groups split them. -/
theorem resolved_groups (ops : List Op) (hs : Spec.Session ops) {w' : World} (h : resolve (history ops World.init) = (.ok (), w')) :
    ∃ b, w'.pr.block = some b ∧ Spec.Equations w' b.equations ∧ Spec.Partition w'.es b := by
  obtain ⟨b, g, hb, hg, _, _, _, _, hga, hgr, _⟩ := resolved_block h
  refine ⟨b, hb, gather_equations hga hg, ?_⟩
  have hw := history_resolve ops h
  have ht : Spec.AllTyped w'.es b.equations := by
    rw [← hg]
    refine gather_typed hga ?_ ?_
    · rw [hw]; exact session_typed hs.resolve
    · rw [hw]; exact history_wf _ init_wf
  have := (groups_partition w'.es b.equations b.variableDict b.parameterDict ht).2
  rw [hgr]
  exact { this with }

/-- The session calls only what is allowed. -/
theorem Ex.alg_session : Spec.Session Ex.alg := by
  intro o ho
  simp only [Ex.alg, List.mem_cons, List.not_mem_nil, or_false] at ho
  rcases ho with rfl | rfl | rfl | rfl | rfl | rfl <;> trivial

theorem Ex.dae_session : Spec.Session Ex.dae := by
  intro o ho
  simp only [Ex.dae, List.mem_cons, List.not_mem_nil, or_false] at ho
  rcases ho with rfl | rfl | rfl | rfl | rfl | rfl | rfl | rfl | rfl | rfl | rfl | rfl <;> trivial

theorem run_ok {α : Type} {p : Except Err Unit × α} (h : p.1 = .ok ()) : p = (.ok (), p.2) := Prod.ext h rfl

/-- The three groups, one equation in each. -/
example : Spec.Session Ex.dae ∧ (resolve (history Ex.dae World.init)).1 = .ok () ∧
    ((resolve (history Ex.dae World.init)).2.pr.block.map fun b => (b.equations, b.linear, b.nonlinear, b.differential)) =
      some ([0, 1, 2], [0], [1], [2]) :=
  ⟨Ex.dae_session, by decide +kernel, by decide +kernel⟩

/-! ## C35 -/

/-- C35 (kind of the problem): with every equation in its group the kind is decided by the kinds of the equations. -/
theorem problem_kind {es : List EqObj} {b : Block} (h : Spec.Partition es b) :
    (b.problemType = some .linear ↔ b.equations ≠ [] ∧ ∀ r ∈ b.equations, Spec.OfKind es .linear r) ∧
    (b.problemType = some .differential ↔ b.equations ≠ [] ∧ ∀ r ∈ b.equations, Spec.OfKind es .differential r) ∧
    (b.problemType = some .dae ↔ (∃ r ∈ b.equations, Spec.OfKind es .differential r) ∧ ∃ r ∈ b.equations, ¬ Spec.OfKind es .differential r) ∧
    (b.problemType = some .nonlinear ↔ (∀ r ∈ b.equations, ¬ Spec.OfKind es .differential r) ∧ ∃ r ∈ b.equations, Spec.OfKind es .nonlinear r) ∧
    (b.problemType = none ↔ b.equations = []) := by
  have hd : b.differential = [] ↔ ∀ r ∈ b.equations, ¬ Spec.OfKind es .differential r := by
    rw [List.eq_nil_iff_forall_not_mem]
    exact forall_congr' fun r => by rw [h.differential]; tauto
  have hn : b.nonlinear = [] ↔ ∀ r ∈ b.equations, ¬ Spec.OfKind es .nonlinear r := by
    rw [List.eq_nil_iff_forall_not_mem]
    exact forall_congr' fun r => by rw [h.nonlinear]; tauto
  have hl : b.linear = [] ↔ ∀ r ∈ b.equations, ¬ Spec.OfKind es .linear r := by
    rw [List.eq_nil_iff_forall_not_mem]
    exact forall_congr' fun r => by rw [h.linear]; tauto
  have hx : ∀ r ∈ b.equations, ∀ k, Spec.OfKind es k r → ∀ k', Spec.OfKind es k' r → k = k' := fun r hr k hk k' hk' => (h.one r hr).unique hk hk'
  have hc : ∀ r ∈ b.equations, Spec.OfKind es .linear r ∨ Spec.OfKind es .nonlinear r ∨ Spec.OfKind es .differential r := by
    intro r hr
    obtain ⟨k, hk, _⟩ := h.one r hr
    cases k <;> simp [hk]
  have he : b.equations = [] ↔ b.linear = [] ∧ b.nonlinear = [] ∧ b.differential = [] := by
    rw [← List.length_eq_zero_iff, ← h.perm.length_eq]
    simp [and_assoc]
  -- all linear: the other two groups are empty
  have allLin : (∀ r ∈ b.equations, Spec.OfKind es .linear r) ↔ b.nonlinear = [] ∧ b.differential = [] := by
    rw [hn, hd]
    constructor
    · intro g
      exact ⟨fun r hr hk => (by cases hx r hr _ (g r hr) _ hk), fun r hr hk => (by cases hx r hr _ (g r hr) _ hk)⟩
    · rintro ⟨g1, g2⟩ r hr
      rcases hc r hr with g | g | g
      · exact g
      · exact absurd g (g1 r hr)
      · exact absurd g (g2 r hr)
  have allDif : (∀ r ∈ b.equations, Spec.OfKind es .differential r) ↔ b.linear = [] ∧ b.nonlinear = [] := by
    rw [hn, hl]
    constructor
    · intro g
      exact ⟨fun r hr hk => (by cases hx r hr _ (g r hr) _ hk), fun r hr hk => (by cases hx r hr _ (g r hr) _ hk)⟩
    · rintro ⟨g1, g2⟩ r hr
      rcases hc r hr with g | g | g
      · exact absurd g (g1 r hr)
      · exact absurd g (g2 r hr)
      · exact g
  have exDif : (∃ r ∈ b.equations, Spec.OfKind es .differential r) ↔ b.differential ≠ [] := by
    rw [ne_eq, hd]; push Not; rfl
  have exNon : (∃ r ∈ b.equations, Spec.OfKind es .nonlinear r) ↔ b.nonlinear ≠ [] := by
    rw [ne_eq, hn]; push Not; rfl
  have exNd : (∃ r ∈ b.equations, ¬ Spec.OfKind es .differential r) ↔ ¬ (b.linear = [] ∧ b.nonlinear = []) := by
    rw [← allDif]; push Not; rfl
  rw [allLin, allDif, exDif, exNon, exNd, ← hd, ne_eq, he]
  unfold Block.problemType
  rw [h.tail]
  cases b.linear <;> cases b.nonlinear <;> cases b.differential <;> simp

/-- C35 for a problem: the kind `resolve` leaves, in any session of written equations. -/
theorem resolved_kind (ops : List Op) (hs : Spec.Session ops) {w' : World} (h : resolve (history ops World.init) = (.ok (), w')) :
    ∃ b, w'.pr.block = some b ∧ Spec.Equations w' b.equations ∧
    (b.problemType = some .linear ↔ b.equations ≠ [] ∧ ∀ r ∈ b.equations, Spec.OfKind w'.es .linear r) ∧
    (b.problemType = some .differential ↔ b.equations ≠ [] ∧ ∀ r ∈ b.equations, Spec.OfKind w'.es .differential r) ∧
    (b.problemType = some .dae ↔ (∃ r ∈ b.equations, Spec.OfKind w'.es .differential r) ∧ ∃ r ∈ b.equations, ¬ Spec.OfKind w'.es .differential r) ∧
    (b.problemType = some .nonlinear ↔ (∀ r ∈ b.equations, ¬ Spec.OfKind w'.es .differential r) ∧ ∃ r ∈ b.equations, Spec.OfKind w'.es .nonlinear r) ∧
    (b.problemType = none ↔ b.equations = []) := by
  obtain ⟨b, h1, h2, h3⟩ := resolved_groups ops hs h
  exact ⟨b, h1, h2, problem_kind h3⟩

example : Spec.Session Ex.dae ∧ (resolve (history Ex.dae World.init)).1 = .ok () ∧
    ((resolve (history Ex.dae World.init)).2.pr.block.map Block.problemType) = some (some .dae) ∧
    Spec.Session Ex.alg ∧ (resolve (history Ex.alg World.init)).1 = .ok () ∧
    ((resolve (history Ex.alg World.init)).2.pr.block.map Block.problemType) = some (some .nonlinear) :=
  ⟨Ex.dae_session, by decide +kernel, by decide +kernel, Ex.alg_session, by decide +kernel, by decide +kernel⟩

/-! ## C36 -/

/-- The verdict the count asks for. -/
structure Spec.Verdict (unknowns equations : Nat) (result : Except Err Unit) : Prop where
  square : result = .ok () ↔ unknowns = equations
  over : result = .error (.exception "OVER") ↔ unknowns < equations
  under : result = .error (.exception "UNDER") ↔ equations < unknowns

theorem dofTest_verdict {sr : SRepr} {w : World} {b : Block} (hb : w.pr.block = some b) {t : Bool}
    (ht : timeDeclared sr w.es b w.pr.timeName = .ok t) :
    (dofTest sr w).2 = w ∧ Spec.Verdict (b.varList.length + unspecParams w.qs b.parameterDict) (b.equationsList.length + if t then 1 else 0) (dofTest sr w).1 := by
  unfold dofTest
  simp only [hb, ht]
  generalize (b.equationsList.length + if t then 1 else 0) = ne
  generalize unspecParams w.qs b.parameterDict = np
  generalize b.varList.length = nv
  have hne : ("OVER" : String) ≠ "UNDER" := by decide
  unfold dofVerdict
  simp only
  split
  · rename_i h
    split at h
    · exact absurd h (by simp)
    · split at h
      · exact absurd h (by simp)
      · exact ⟨rfl, by constructor <;> simp <;> omega⟩
  · rename_i h
    split at h
    · exact ⟨rfl, by constructor <;> simp <;> omega⟩
    · split at h <;> exact absurd h (by simp)
  · rename_i h
    split at h
    · exact absurd h (by simp)
    · split at h
      · exact ⟨rfl, by constructor <;> simp <;> omega⟩
      · exact absurd h (by simp)

/-- A quantity of this class and name occurs in an equation of a model of the problem. -/
def Spec.Mentioned (w : World) (k : Kind) (name : String) : Prop :=
  ∃ m ∈ dvalues w.pr.models, ∃ mo, w.ms[m]? = some mo ∧ ∃ r ∈ dvalues mo.eqns, ∃ e n, w.es[r]? = some e ∧ e.expr = some n ∧
    ∃ x ∈ dvalues n.symMap, ∃ q, w.qs[x]? = some q ∧ q.kind = k ∧ q.name = name

theorem mentioned_iff {w : World} (hw : w.WF) (k : Kind) (s : String) :
    NamesOf w.qs k (((dvalues w.pr.models).flatMap (Gather.eqnsOf w)).flatMap (Gather.objsOf w)) s ↔ Spec.Mentioned w k s := by
  constructor
  · rintro ⟨x, hx, q, hq, hk, hn⟩
    obtain ⟨r, hr, hxr⟩ := List.mem_flatMap.mp hx
    obtain ⟨m, hm, hrm⟩ := List.mem_flatMap.mp hr
    unfold Gather.eqnsOf at hrm
    cases hmo : w.ms[m]? with
    | none => simp [hmo] at hrm
    | some mo =>
      simp only [hmo] at hrm
      unfold Gather.objsOf at hxr
      cases he : w.es[r]? with
      | none => simp [he] at hxr
      | some e =>
        obtain ⟨n, hn', ho, _⟩ := hw.es r e he
        simp only [he, ho] at hxr
        exact ⟨m, hm, mo, hmo, r, hrm, e, n, he, hn', x, hxr, q, hq, hk, hn⟩
  · rintro ⟨m, hm, mo, hmo, r, hrm, e, n, he, hn', x, hxr, q, hq, hk, hn⟩
    refine ⟨x, List.mem_flatMap.mpr ⟨r, List.mem_flatMap.mpr ⟨m, hm, ?_⟩, ?_⟩, q, hq, hk, hn⟩
    · simpa [Gather.eqnsOf, hmo] using hrm
    · obtain ⟨n2, hn2, ho, _⟩ := hw.es r e he
      rw [hn'] at hn2; cases hn2
      simpa [Gather.objsOf, he, ho] using hxr

theorem dkeys_filter_sublist {α β : Type} (d : Dict α β) (f : α × β → Bool) : (dkeys (d.filter f)).Sublist (dkeys d) :=
  List.Sublist.map _ List.filter_sublist

theorem mem_dkeys_filter {d : Dict String Ref} {f : String → Bool} {k : String} :
    k ∈ dkeys (d.filter fun p => f p.1) ↔ k ∈ dkeys d ∧ f k = true := by
  unfold dkeys
  simp only [List.mem_map, List.mem_filter]
  constructor
  · rintro ⟨p, ⟨h1, h2⟩, rfl⟩; exact ⟨⟨p, h1, rfl⟩, h2⟩
  · rintro ⟨⟨p, h1, rfl⟩, h2⟩; exact ⟨p, ⟨h1, h2⟩, rfl⟩

/-- C36: after `resolve` the variable list consists of the problem's variables that occur in some equation of its models: once each, in the
order in which the problem got to know them.  The same for the parameters.  (The problem's variables are those its models had when they were
added, see `variables_declared_late_missing`.) -/
theorem block_variables {w w' : World} (hr : Reachable w) (h : resolve w = (.ok (), w')) :
    ∃ b, w'.pr.block = some b ∧
      b.varList.Nodup ∧ b.varList.Sublist (dkeys w.pr.variableDict) ∧
      (∀ k, k ∈ b.varList ↔ k ∈ dkeys w.pr.variableDict ∧ Spec.Mentioned w' .variable k) ∧
      (dkeys b.parameterDict).Nodup ∧ (dkeys b.parameterDict).Sublist (dkeys w.pr.parameterDict) ∧
      (∀ k, k ∈ dkeys b.parameterDict ↔ k ∈ dkeys w.pr.parameterDict ∧ Spec.Mentioned w' .parameter k) ∧
      (∀ k x, dget b.parameterDict k = some x → dget w.pr.parameterDict k = some x) := by
  have hw' : w'.WF := by
    obtain ⟨ops, rfl⟩ := hr
    rw [history_resolve ops h]; exact history_wf _ init_wf
  obtain ⟨b, g, hb, hg, hm, hv, hp, _, hga, hgr, hbv, hbp, hbl, _⟩ := resolved_block h
  obtain ⟨_, gv, gp⟩ := Gather.gather hga
  have hpr := reachable_problem hr
  refine ⟨b, hb, ?_, ?_, fun k => ?_, ?_, ?_, fun k => ?_, fun k x hx => ?_⟩
  · rw [hbl, hbv]; exact hpr.vars.1.sublist (dkeys_filter_sublist _ _)
  · rw [hbl, hbv]; exact dkeys_filter_sublist _ _
  · rw [hbl, hbv, mem_dkeys_filter (f := fun s => g.varNames.contains s), List.contains_iff_mem, gv, mentioned_iff hw']
  · rw [hbp]; exact hpr.pars.1.sublist (dkeys_filter_sublist _ _)
  · rw [hbp]; exact dkeys_filter_sublist _ _
  · rw [hbp, mem_dkeys_filter (f := fun s => g.parNames.contains s), List.contains_iff_mem, gp, mentioned_iff hw']
  · rw [hbp] at hx
    have hn : DNodup (w.pr.parameterDict.filter fun p => g.parNames.contains p.1) := hpr.pars.1.sublist (dkeys_filter_sublist _ _)
    rw [dget_eq_some_iff hn] at hx
    exact (dget_eq_some_iff hpr.pars.1).mpr (List.mem_filter.mp hx).1

/-- `t` occurs only as the variable of differentiation and in the product `x*t`. -/
example : Reachable (history Ex.dae World.init) ∧ (resolve (history Ex.dae World.init)).1 = .ok () ∧
    ((resolve (history Ex.dae World.init)).2.pr.block.map fun b => (b.varList, dkeys b.parameterDict)) =
      some (["x_m", "y_m", "z_m", "t_m"], ["p_m"]) :=
  ⟨⟨Ex.dae, rfl⟩, by decide +kernel, by decide +kernel⟩

/-- A model that declares `x` and `x - 1 == 0` in its body, added to the problem before it is called. -/
def Ex.late : List Op := [.newModel "m" "" { vars := [Ex.dv "x"], eqns := [Ex.eq_ "e" (.res (.binN .sub (Ex.at_ "x") 1))] } none, .addModels (.leaf 0)]

/-- C36 read strictly fails: the problem takes the variables a model has when it is *added*.  Those the model declares when it is called, which
`resolve` does by itself, occur in the equations but are not in the variable list, and the degree-of-freedom test fails. -/
theorem variables_declared_late_missing : ∃ w' b, resolve (history Ex.late World.init) = (.ok (), w') ∧ w'.pr.block = some b ∧
    Spec.Mentioned w' .variable "x_m" ∧ b.varList = [] ∧ ∀ sr, (dofTest sr w').1 = .error (.exception "OVER") := by
  have h1 : (resolve (history Ex.late World.init)).1 = .ok () := by decide +kernel
  have h2 : (resolve (history Ex.late World.init)).2.pr.block.map (fun b => (b.varList, b.differential, b.parameterDict, b.equationsList.length)) =
      some ([], [], [], 1) := by decide +kernel
  have h3 : (dvalues (resolve (history Ex.late World.init)).2.pr.models, (resolve (history Ex.late World.init)).2.ms[0]?.map (fun mo => dvalues mo.eqns),
      ((resolve (history Ex.late World.init)).2.es[0]?.bind fun e => e.expr).map (fun n => dvalues n.symMap),
      (resolve (history Ex.late World.init)).2.qs[0]?.map (fun q => (q.kind, q.name))) =
      ([0], some [0], some [0], some (Kind.variable, "x_m")) := by decide +kernel
  generalize hr : resolve (history Ex.late World.init) = r at h1 h2 h3
  obtain ⟨o, w'⟩ := r
  simp only at h1 h2 h3
  subst h1
  simp only [Prod.mk.injEq, Option.map_eq_some_iff, Option.bind_eq_some_iff] at h2 h3
  obtain ⟨b, hb, h5, h6, h7, h8⟩ := h2
  obtain ⟨g1, ⟨mo, hm, g2⟩, ⟨n, ⟨e, he, hn⟩, g3⟩, ⟨q, hq, g4, g5⟩⟩ := h3
  refine ⟨w', b, rfl, hb, ⟨0, by simp [g1], mo, hm, 0, by simp [g2], e, n, he, hn, 0, by simp [g3], q, hq, g4, g5⟩, h5, fun sr => ?_⟩
  have ht : timeDeclared sr w'.es b w'.pr.timeName = .ok false := by cases w'.pr.timeName <;> simp [timeDeclared, h6]
  rw [(dofTest_verdict hb ht).2.over]
  simp [h5, h7, h8, unspecParams, dvalues]

/-! ## C37 -/

/-- The text occurs in the other one. -/
def Spec.Within (a b : String) : Prop := a.toList <:+: b.toList

theorem isInfix_iff (a b : List Char) : isInfix a b = true ↔ a <:+: b := by
  induction b with
  | nil => simp [isInfix]
  | cons c t ih => rw [isInfix, Bool.or_eq_true, ih, List.isPrefixOf_iff_prefix, List.infix_cons_iff]

theorem pyIn_iff (a b : String) : pyIn a b = true ↔ Spec.Within a b := isInfix_iff _ _

/-- What decides whether time is taken for an unknown that needs no equation: one of its names occurs in the text of an operand of the
expression handed on for a differential equation, and `Derivative` does not. -/
def Spec.TimeSeen (sr : SRepr) (w : World) (eqs : List ERef) (names : List String) : Prop :=
  ∃ r ∈ eqs, ∃ e s, w.es[r]? = some e ∧ Spec.OfKind w.es .differential r ∧ e.symbolicObject = .ok s ∧
    ∃ txt ∈ sr s, ∃ v ∈ names, Spec.Within v txt ∧ ¬ Spec.Within "Derivative" txt

theorem timeDeclared_iff {sr : SRepr} {w : World} {b : Block} (h : Spec.Partition w.es b) {names : List String} :
    ∃ t, timeDeclared sr w.es b (some names) = .ok t ∧ (t = true ↔ Spec.TimeSeen sr w b.equations names) := by
  refine ⟨_, rfl, ?_⟩
  simp only [List.any_eq_true, memberDeclares, Bool.and_eq_true, Bool.not_eq_true', pyIn_iff, ← Bool.not_eq_true]
  constructor
  · rintro ⟨r, hr, txt, ht, v, hv, h1, h2⟩
    obtain ⟨hr, hk⟩ := (h.differential r).mp hr
    unfold members at ht
    cases he : w.es[r]? with
    | none => simp [he] at ht
    | some e =>
      simp only [he] at ht
      cases hs : e.symbolicObject with
      | error x => simp [hs] at ht
      | ok s =>
        simp only [hs] at ht
        exact ⟨r, hr, e, s, he, hk, hs, txt, ht, v, hv, h1, h2⟩
  · rintro ⟨r, hr, e, s, he, hk, hs, txt, ht, v, hv, h1, h2⟩
    exact ⟨r, (h.differential r).mpr ⟨hr, hk⟩, txt, by simpa [members, he, hs] using ht, v, hv, h1, h2⟩

theorem timeDeclared_algebraic {sr : SRepr} {w : World} {b : Block} (h : Spec.Partition w.es b)
    (hd : ∀ r ∈ b.equations, ¬ Spec.OfKind w.es .differential r) (t : Option (List String)) : timeDeclared sr w.es b t = .ok false := by
  have : b.differential = [] := List.eq_nil_iff_forall_not_mem.mpr fun r hr => hd r ((h.differential r).mp hr).1 ((h.differential r).mp hr).2
  cases t <;> simp [timeDeclared, this]

/-- The unknowns the test counts: the problem's variables that occur in an equation, whether fixed or not ... -/
def Spec.UnknownVar (w w' : World) (k : String) : Prop := k ∈ dkeys w.pr.variableDict ∧ Spec.Mentioned w' .variable k

/-- ... and the problem's parameters that occur in an equation and have no value. -/
def Spec.UnknownPar (w w' : World) (k : String) : Prop :=
  Spec.Mentioned w' .parameter k ∧ ∃ x q, dget w.pr.parameterDict k = some x ∧ w'.qs[x]? = some q ∧ q.isSpecified = false

theorem unspec_list {w w' : World} (hr : Reachable w) (h : resolve w = (.ok (), w')) {b : Block} (hb : w'.pr.block = some b) :
    ∃ ps : List String, ps.Nodup ∧ (∀ k, k ∈ ps ↔ Spec.UnknownPar w w' k) ∧ unspecParams w'.qs b.parameterDict = ps.length := by
  obtain ⟨b', hb', _, _, _, hn, _, hm, hg⟩ := block_variables hr h
  rw [hb] at hb'; cases hb'
  let f : String × Ref → Bool := fun p => match w'.qs[p.2]? with
    | some q => !q.isSpecified
    | none => false
  refine ⟨dkeys (b.parameterDict.filter f), hn.sublist (dkeys_filter_sublist _ _), fun k => ?_, ?_⟩
  · have hf : ∀ p : String × Ref, f p = true ↔ ∃ q, w'.qs[p.2]? = some q ∧ q.isSpecified = false := by
      intro p
      simp only [f]
      cases w'.qs[p.2]? <;> simp
    simp only [dkeys, List.mem_map, List.mem_filter, hf]
    constructor
    · rintro ⟨p, ⟨h1, q, h2, h3⟩, rfl⟩
      exact ⟨((hm p.1).mp (mem_dkeys_of_mem h1)).2, p.2, q, hg _ _ (dget_of_mem hn h1), h2, h3⟩
    · rintro ⟨h1, x, q, h2, h3, h4⟩
      have hk : k ∈ dkeys b.parameterDict := (hm k).mpr ⟨mem_dkeys_of_dget h2, h1⟩
      obtain ⟨y, hy⟩ := Option.isSome_iff_exists.mp ((dget_isSome_iff _ _).mpr hk)
      have := hg k y hy
      rw [h2] at this; cases this
      exact ⟨(k, x), ⟨(dget_eq_some_iff hn).mp hy, q, h3, h4⟩, rfl⟩
  · simp only [unspecParams, dkeys, dvalues, List.filter_map, List.length_map]
    rfl

theorem forall2_length {α β : Type} {R : α → β → Prop} {a : List α} {b : List β} (h : List.Forall₂ R a b) : a.length = b.length := h.length_eq

/-- C37 (partial): after `resolve` in any session of written equations, the degree-of-freedom test accepts exactly when the unknowns are as
many as the equations, one more when time is seen in a differential equation, and otherwise reports which side is short.
Missing: the unknowns should not include variables that have been given a value (`dof_counts_fixed_variables`); time is looked for by a text
search which errs in both directions (`dof_time_by_substring`, `dof_time_missed`); without a name of the time variable the test raises
(`dof_needs_time_name`). -/
theorem dof_square_partial (ops : List Op) (hs : Spec.Session ops) {w' : World} (h : resolve (history ops World.init) = (.ok (), w')) (sr : SRepr) :
    ∃ eqs vs ps : List _, Spec.Equations w' eqs ∧ vs.Nodup ∧ ps.Nodup ∧
      (∀ k, k ∈ vs ↔ Spec.UnknownVar (history ops World.init) w' k) ∧ (∀ k, k ∈ ps ↔ Spec.UnknownPar (history ops World.init) w' k) ∧
      ((∀ r ∈ eqs, ¬ Spec.OfKind w'.es .differential r) → Spec.Verdict (vs.length + ps.length) eqs.length (dofTest sr w').1) ∧
      (∀ names, w'.pr.timeName = some names →
        (Spec.TimeSeen sr w' eqs names → Spec.Verdict (vs.length + ps.length) (eqs.length + 1) (dofTest sr w').1) ∧
        (¬ Spec.TimeSeen sr w' eqs names → Spec.Verdict (vs.length + ps.length) eqs.length (dofTest sr w').1)) := by
  obtain ⟨b, hb, he, hp⟩ := resolved_groups ops hs h
  obtain ⟨b', hb', hv1, hv2, hv3, _⟩ := block_variables ⟨ops, rfl⟩ h
  rw [hb] at hb'; cases hb'
  obtain ⟨ps, hp1, hp2, hp3⟩ := unspec_list ⟨ops, rfl⟩ h hb
  obtain ⟨b', g, hb', _, _, _, _, _, _, _, _, _, _, hl⟩ := resolved_block h
  rw [hb] at hb'; cases hb'
  have hlen : b.equationsList.length = b.equations.length := (forall2_length (getEquationList_ok hl)).symm
  refine ⟨b.equations, b.varList, ps, he, hv1, hp1, hv3, hp2, fun hd => ?_, fun names hn => ⟨fun ht => ?_, fun ht => ?_⟩⟩
  · have := (dofTest_verdict hb (timeDeclared_algebraic (sr := sr) hp hd w'.pr.timeName)).2
    rw [hp3, hlen] at this
    exact this
  · obtain ⟨t, h1, h2⟩ := timeDeclared_iff (sr := sr) hp (names := names)
    rw [h2.mpr ht] at h1
    have := (dofTest_verdict (sr := sr) hb (by rw [hn]; exact h1)).2
    rw [hp3, hlen] at this
    exact this
  · obtain ⟨t, h1, h2⟩ := timeDeclared_iff (sr := sr) hp (names := names)
    rw [Bool.eq_false_iff.mpr fun hx => ht (h2.mp hx)] at h1
    have := (dofTest_verdict (sr := sr) hb (by rw [hn]; exact h1)).2
    rw [hp3, hlen] at this
    exact this

/-- A square system with a differential equation and a parameter without value: five unknowns `x`, `y`, `z`, `t`, `p`, three equations and
time seen: one too many.  With the algebraic system the test passes. -/
example : Spec.Session Ex.dae ∧ (resolve (history Ex.dae World.init)).1 = .ok () ∧
    (dofTest Ex.sr (resolve (history Ex.dae World.init)).2).1 = .error (.exception "UNDER") ∧
    (dofTest Ex.sr (resolve (history Ex.alg World.init)).2).1 = .ok () ∧
    (resolve (history Ex.dae World.init)).2.pr.timeName = some ["t_m"] :=
  ⟨Ex.dae_session, by decide +kernel, by decide +kernel, by decide +kernel, by decide +kernel⟩

/-- `x` is given a value, `x - y` is stated. -/
def Ex.fixed : List Op := [.newModel "m" "" {} none, .cmd 0 (Ex.dv "x"), .cmd 0 (Ex.dv "y"), .cmd 0 (.setValue { attr := "x" } (.float 2) none),
  .cmd 0 (Ex.eq_ "e" (.res (.bin .sub (Ex.at_ "x") (Ex.at_ "y")))), .addModels (.leaf 0)]

/-- C37 fails: a variable that has been given a value, and so does not occur in the expression to be solved, still counts as unknown.  The
system `2 - y` for `y` is said to be underspecified. -/
theorem dof_counts_fixed_variables (sr : SRepr) : (resolve (history Ex.fixed World.init)).1 = .ok () ∧
    ((resolve (history Ex.fixed World.init)).2.pr.block.map fun b => (b.equationsList.map fun s => s.expr.free)) = some [["y_m"]] ∧
    (dofTest sr (resolve (history Ex.fixed World.init)).2).1 = .error (.exception "UNDER") := by
  refine ⟨by decide +kernel, by decide +kernel, ?_⟩
  have h2 : (resolve (history Ex.fixed World.init)).2.pr.block.map (fun b => (b.varList, b.differential, b.parameterDict, b.equationsList.length)) =
      some (["x_m", "y_m"], [], [], 1) := by decide +kernel
  generalize (resolve (history Ex.fixed World.init)).2 = w' at h2 ⊢
  simp only [Prod.mk.injEq, Option.map_eq_some_iff] at h2
  obtain ⟨b, hb, h5, h6, h7, h8⟩ := h2
  have ht : timeDeclared sr w'.es b w'.pr.timeName = .ok false := by cases w'.pr.timeName <;> simp [timeDeclared, h6]
  rw [(dofTest_verdict hb ht).2.under]
  simp [h5, h7, h8, unspecParams, dvalues]

/-- `dz/dt == rt*z`, `rt - 1`. -/
def Ex.sub : List Op := [.newModel "m" "" {} none, .cmd 0 (Ex.dv "z"), .cmd 0 (Ex.dv "t"), .cmd 0 (Ex.dv "rt"), .cmd 0 (.distribute { attr := "z" }),
  .cmd 0 (Ex.eq_ "ode" (.eqn (.diff { attr := "z" } (some { attr := "t" })) (.bin .mul (Ex.at_ "rt") (Ex.at_ "z")))),
  .cmd 0 (Ex.eq_ "alg" (.res (.binN .sub (Ex.at_ "rt") 1))), .addModels (.leaf 0), .time ["t_m"]]

/-- C37 fails: `rt_m` is taken for the time variable `t_m`, whose name is a part of it, and the square system `dz/dt == rt*z`, `rt == 1` (two
unknowns, two equations) is said to be overspecified. -/
theorem dof_time_by_substring : (resolve (history Ex.sub World.init)).1 = .ok () ∧
    ((resolve (history Ex.sub World.init)).2.pr.block.map fun b => (b.varList, b.equations.length)) = some (["z_m", "rt_m"], 2) ∧
    (dofTest Ex.sr (resolve (history Ex.sub World.init)).2).1 = .error (.exception "OVER") := by
  refine ⟨by decide +kernel, by decide +kernel, by decide +kernel⟩

/-- `dz/dt == t`. -/
def Ex.lone : List Op := [.newModel "m" "" {} none, .cmd 0 (Ex.dv "z"), .cmd 0 (Ex.dv "t"), .cmd 0 (.distribute { attr := "z" }),
  .cmd 0 (Ex.eq_ "ode" (.eqn (.diff { attr := "z" } (some { attr := "t" })) (Ex.at_ "t"))), .addModels (.leaf 0), .time ["t_m"]]

/-- C37 fails: a symbol by itself has no operands, so time is not found in `dz/dt == t` and the system is said to be underspecified. -/
theorem dof_time_missed : (resolve (history Ex.lone World.init)).1 = .ok () ∧
    ((resolve (history Ex.lone World.init)).2.pr.block.map fun b => (b.varList, b.equations.length)) = some (["z_m", "t_m"], 1) ∧
    (dofTest Ex.sr (resolve (history Ex.lone World.init)).2).1 = .error (.exception "UNDER") := by
  refine ⟨by decide +kernel, by decide +kernel, by decide +kernel⟩

/-- Without the name of the time variable the test raises on every differential equation whose expression has operands. -/
theorem dof_needs_time_name {sr : SRepr} {w : World} {b : Block} (hb : w.pr.block = some b) (ht : w.pr.timeName = none) {r : ERef} {e : EqObj} {s : SObj}
    (hr : r ∈ b.differential) (he : w.es[r]? = some e) (hs : e.symbolicObject = .ok s) (hm : sr s ≠ []) : dofTest sr w = (.error .typeError, w) := by
  have : timeDeclared sr w.es b none = .error .typeError := by
    unfold timeDeclared
    rw [if_neg]
    rw [List.all_eq_true]
    intro h
    have := h r hr
    simp only [members, he, hs, List.isEmpty_iff] at this
    exact hm this
  unfold dofTest
  simp only [hb, ht, this]

example : ∃ (w : World) (b : Block) (e : EqObj) (s : SObj), w.pr.block = some b ∧ w.pr.timeName = none ∧ 0 ∈ b.differential ∧ w.es[0]? = some e ∧
    e.symbolicObject = .ok s ∧ Ex.sr s ≠ [] := by
  have h : ((resolve (history (Ex.sub.take 8) World.init)).2.pr.block.map (fun b => b.differential),
      (resolve (history (Ex.sub.take 8) World.init)).2.pr.timeName,
      (resolve (history (Ex.sub.take 8) World.init)).2.es[0]?.map fun e => e.symbolicObject) =
      (some [0], none, some (.ok ⟨false, .mul (.atom (.v "rt_m")) (.atom (.v "z_m"))⟩)) := by decide +kernel
  generalize (resolve (history (Ex.sub.take 8) World.init)).2 = w at h
  simp only [Prod.mk.injEq, Option.map_eq_some_iff] at h
  obtain ⟨⟨b, hb, h1⟩, h2, e, he, h3⟩ := h
  exact ⟨w, b, e, _, hb, h2, by simp [h1], he, h3, by decide⟩

/-! ## C49 -/

/-- The equation object stands for the statement: its residual and what it hands on have the statement's values. -/
def EqObj.States (e : EqObj) (st : Stmt) : Prop :=
  ∀ {K : Type} [Field K] [LinearOrder K] (I : Interp K) (ρ : Atom → K),
    (∃ n, e.expr = some n ∧ n.sym.expr.eval I ρ = Spec.residual I ρ st) ∧
    ∀ side, ∃ s, e.symbolicObject none side = .ok s ∧ s.expr.eval I ρ = Spec.sideVal I ρ side st

theorem EqObj.States.side_residual {e : EqObj} {st : Stmt} (h : e.States st) (hf : e.form = .residual) {K : Type} [Field K] [LinearOrder K] (I : Interp K)
    (ρ : Atom → K) (side : EqObj.Side) : Spec.sideVal I ρ side st = Spec.residual I ρ st := by
  obtain ⟨⟨n, hn, hv⟩, hs⟩ := h I ρ
  obtain ⟨s, h1, h2⟩ := hs side
  simp only [EqObj.symbolicObject, EqObj.getNode, Option.getD_none, hf, hn, ok_bind, Except.ok.injEq] at h1
  rw [← h2, ← h1, hv]

theorem Stmt.states (st : Stmt) {t : String} {e0 e : EqObj} {a : ResArg} (ha : st.arg = .ok a) (hf : e0.Fresh a)
    (h : e0.setResidual t a = (.ok (), e)) (n o : String) (d : Option (Dict String Ref)) : EqObj.States { e with name := n, owner := o, objects := d } st := by
  intro K _ _ I ρ
  refine ⟨?_, fun side => ?_⟩
  · obtain ⟨m, h1, h2, _⟩ := equation_residual I ρ st t e0 e ha h
    exact ⟨m, h1, h2⟩
  · rcases hf with hf | hf
    · exact (equation_sides I ρ st t e0 e hf ha h side).1
    · -- for an equality the earlier form is overwritten
      have key : ({ e0 with form := .residual } : EqObj).setResidual t a = (.ok (), e) := by
        cases a with
        | node n => exact absurd rfl (hf n)
        | eqn l r =>
          cases hd : l.sub (.node r) with
          | error x => simp [EqObj.setResidual, hd] at h
          | ok d => simp only [EqObj.setResidual, hd] at h ⊢; exact h
        | eqnNum l q =>
          cases hd : l.sub (.node (EqObj.numNode t q l.unit)) with
          | error x => simp [EqObj.setResidual, hd] at h
          | ok d => simp only [EqObj.setResidual, hd] at h ⊢; exact h
        | eqnOther l => cases st <;> simp [Stmt.arg, bind_eq_ok] at ha
        | other => simp [EqObj.setResidual] at h
      exact (equation_sides I ρ st t _ e rfl ha key side).1

/-! ### Renamed statements -/

/-- The expression with its quantities renamed. -/
def Spec.moved (f : String → String) : PyExpr → PyExpr
  | .q r x => .q r { x with name := f x.name }
  | .bin op a b => .bin op (moved f a) (moved f b)
  | .binN op a n => .binN op (moved f a) n
  | .nbin op n a => .nbin op n (moved f a)
  | .fn g a => .fn g (moved f a)
  | .mmN k a n => .mmN k (moved f a) n
  | .diff r x none => .diff r { x with name := f x.name } none
  | .diff r x (some (r', t)) => .diff r { x with name := f x.name } (some (r', { t with name := f t.name }))

/-- The statement with its quantities renamed. -/
def Spec.movedSt (f : String → String) : Stmt → Stmt
  | .eqn l r => .eqn (moved f l) (moved f r)
  | .eqnNum l q => .eqnNum (moved f l) q
  | .res x => .res (moved f x)

section
variable {K : Type} [Field K] [LinearOrder K]

theorem val_moved (I : Interp K) (ρ : Atom → K) (f : String → String) (x : PyExpr) :
    Spec.val I ρ (Spec.moved f x) = Spec.val I (fun a => ρ (a.ren f)) x := by
  induction x with
  | q r x => rfl
  | bin op a b iha ihb => simp only [Spec.moved, Spec.val, iha, ihb]
  | binN op a n ih => simp only [Spec.moved, Spec.val, ih]
  | nbin op n a ih => simp only [Spec.moved, Spec.val, ih]
  | fn g a ih => simp only [Spec.moved, Spec.val, ih]
  | mmN k a n ih => simp only [Spec.moved, Spec.val, ih]
  | diff r x ind =>
    cases ind with
    | none => rfl
    | some t => rfl

theorem residual_moved (I : Interp K) (ρ : Atom → K) (f : String → String) (st : Stmt) :
    Spec.residual I ρ (Spec.movedSt f st) = Spec.residual I (fun a => ρ (a.ren f)) st := by
  cases st <;> simp only [Spec.movedSt, Spec.residual, val_moved]

theorem sideVal_moved (I : Interp K) (ρ : Atom → K) (f : String → String) (side : EqObj.Side) (st : Stmt) :
    Spec.sideVal I ρ side (Spec.movedSt f st) = Spec.sideVal I (fun a => ρ (a.ren f)) side st := by
  cases st <;> cases side <;> simp only [Spec.movedSt, Spec.sideVal, val_moved]

end

/-- A Python number does not depend on names. -/
def SObj.Closed (s : SObj) : Prop := s.isPy = true → ∀ f, s.expr.ren f = s.expr

theorem opSym_ren (op : BOp) (a b : Sym) (f : String → String) : (opSym op a b).ren f = opSym op (a.ren f) (b.ren f) := by
  cases op <;> rfl

theorem op_num_closed {m r : ENode} {op : BOp} {q : ℚ} (hm : m.sym.Closed) (h : m.op op (.num q) = .ok r) : r.sym.Closed := by
  rw [(op_num_ok h).1]
  intro hp f
  simp only [Bool.and_true] at hp
  rw [opSym_ren, hm hp f]; rfl

theorem op_node_closed {m n r : ENode} {op : BOp} (hm : m.sym.Closed) (hn : n.sym.Closed) (h : m.op op (.node n) = .ok r) : r.sym.Closed := by
  rw [(op_node_ok h).1]
  intro hp f
  simp only [Bool.and_eq_true] at hp
  rw [opSym_ren, hm hp.1 f, hn hp.2 f]

theorem build_closed (x : PyExpr) {m : ENode} (h : x.build = .ok m) : m.sym.Closed := by
  induction x generalizing m with
  | q r x =>
    simp only [PyExpr.build, Except.ok.injEq] at h
    subst h
    unfold Quantity.call
    split
    · intro hp; cases hp
    · intro _ f; rfl
  | bin op a b iha ihb =>
    simp only [PyExpr.build, bind_eq_ok] at h
    obtain ⟨x, hx, y, hy, h⟩ := h
    exact op_node_closed (iha hx) (ihb hy) h
  | binN op a n ih =>
    simp only [PyExpr.build, bind_eq_ok] at h
    obtain ⟨x, hx, h⟩ := h
    exact op_num_closed (ih hx) h
  | nbin op n a ih =>
    simp only [PyExpr.build, bind_eq_ok] at h
    obtain ⟨x, hx, h⟩ := h
    cases op with
    | add => exact op_num_closed (op := .add) (ih hx) h
    | mul => exact op_num_closed (op := .mul) (ih hx) h
    | sub =>
      simp only [ENode.rop, ENode.rsub, bind_eq_ok] at h
      obtain ⟨y, hy, h⟩ := h
      exact op_num_closed (op := .add) (op_num_closed (op := .mul) (ih hx) hy) h
    | div =>
      simp only [ENode.rop, ENode.rdiv, bind_eq_ok] at h
      obtain ⟨y, hy, h⟩ := h
      exact op_num_closed (op := .mul) (op_num_closed (op := .pow) (ih hx) hy) h
    | pow => simp [ENode.rop] at h
  | fn g a ih =>
    simp only [PyExpr.build, bind_eq_ok] at h
    obtain ⟨x, hx, h⟩ := h
    simp only [applyFn, wrapper] at h
    split at h
    · simp only [Except.ok.injEq] at h
      subst h
      intro hp; cases hp
    · cases h
  | mmN k a n ih =>
    simp only [PyExpr.build, bind_eq_ok] at h
    obtain ⟨x, hx, h⟩ := h
    obtain ⟨r, hr, _, hs, _⟩ := mmN_eq k x n
    rw [hr] at h; cases h
    rw [hs]
    intro hp; cases hp
  | diff r x ind =>
    simp only [PyExpr.build, Quantity.diff] at h
    cases hd : x.hasDomain with
    | false => simp [hd] at h
    | true =>
      simp only [hd, if_true] at h
      cases ind with
      | none =>
        simp only [diffNode, ok_bind, Except.ok.injEq] at h
        subst h
        intro hp; cases hp
      | some t =>
        obtain ⟨r', t⟩ := t
        cases ht : t.isSpecified with
        | true => simp [diffNode, ht] at h
        | false =>
          simp only [diffNode, ht, Bool.false_eq_true, if_false, ok_bind, Except.ok.injEq] at h
          subst h
          intro hp; cases hp

/-- The names after the rewriting of equation.py l.280-339: the entries of the table one after the other. -/
def oneByOne (names : Dict String String) (s : String) : String :=
  (psorted (fun a b => strLe a.1 b.1) names).foldl (fun s p => ren1 p.1 p.2 s) s

theorem subsNames_oneByOne (names : Dict String String) (e : Sym) : e.subsNames names = e.ren (oneByOne names) := foldl_ren _ e

/-- The equation stands for the statement, and its sides that are Python numbers do not depend on names. -/
def EqObj.StatesC (e : EqObj) (st : Stmt) : Prop := e.States st ∧ (e.form = .elementary → ∀ l r, e.elem = some (l, r) → l.sym.Closed ∧ r.sym.Closed)

theorem Stmt.statesC (st : Stmt) {t : String} {e0 e : EqObj} {a : ResArg} (ha : st.arg = .ok a) (hf : e0.Fresh a)
    (h : e0.setResidual t a = (.ok (), e)) (n o : String) (d : Option (Dict String Ref)) : EqObj.StatesC { e with name := n, owner := o, objects := d } st := by
  refine ⟨st.states ha hf h n o d, ?_⟩
  cases st with
  | eqn l r =>
    simp only [Stmt.arg, bind_eq_ok, Except.ok.injEq] at ha
    obtain ⟨nl, hl, nr, hr, rfl⟩ := ha
    simp only [EqObj.setResidual] at h
    split at h
    · simp at h
    · obtain ⟨k, hk, rfl⟩ := EqObj.finish_ok h
      rintro _ x y hxy
      simp only [Option.some.injEq, Prod.mk.injEq] at hxy
      obtain ⟨rfl, rfl⟩ := hxy
      exact ⟨build_closed l hl, build_closed r hr⟩
  | eqnNum l q =>
    simp only [Stmt.arg, bind_eq_ok, Except.ok.injEq] at ha
    obtain ⟨nl, hl, rfl⟩ := ha
    simp only [EqObj.setResidual] at h
    split at h
    · simp at h
    · obtain ⟨k, hk, rfl⟩ := EqObj.finish_ok h
      rintro _ x y hxy
      simp only [Option.some.injEq, Prod.mk.injEq] at hxy
      obtain ⟨rfl, rfl⟩ := hxy
      exact ⟨build_closed l hl, fun _ _ => rfl⟩
  | res x =>
    simp only [Stmt.arg, bind_eq_ok, Except.ok.injEq] at ha
    obtain ⟨nl, hl, rfl⟩ := ha
    have hform := EqObj.setResidual_node_form h
    rcases hf with hf | hf
    · intro he
      simp only at he
      rw [hform, hf] at he
      cases he
    · exact absurd rfl (hf nl)

/-- A copied equation stands for the renamed statement. -/
theorem EqObj.StatesC.convert {e e' : EqObj} {st : Stmt} (hs : e.StatesC st) {n o : String} {names : Dict String String} {whole : Dict String Ref}
    (h : EqObj.convert { e with name := n, owner := o } names whole = .ok e') {f : String → String} (hren : ∀ a : Sym, a.subsNames names = a.ren f) : e'.StatesC (Spec.movedSt f st) := by
  obtain ⟨hst, hcl⟩ := hs
  unfold EqObj.convert at h
  cases hx : e.expr with
  | none => simp [hx] at h
  | some k =>
    simp only [hx, EqObj.convertNode, bind_eq_ok] at h
    obtain ⟨s, hs, el, hel, mp, _, h⟩ := h
    obtain ⟨k', hk', rfl⟩ := EqObj.sweep_ok h
    simp only [Option.some.injEq] at hk'
    subst hk'
    have hs' : s = ⟨false, k.sym.expr.ren f⟩ := by
      unfold EqObj.subsObj at hs
      split at hs
      · simp at hs
      · simpa [hren] using hs.symm
    subst hs'
    have hquiet : ∀ x : SObj, x.Closed → (EqObj.subsObjQuiet names x).expr = x.expr.ren f ∧ (EqObj.subsObjQuiet names x).Closed := by
      intro x hx
      unfold EqObj.subsObjQuiet
      cases hp : x.isPy
      · exact ⟨by simp [hren], fun h => by simp at h⟩
      · exact ⟨by simp [hx hp], by simpa using hx⟩
    have helem : e.form = .elementary → ∀ l r, el = some (l, r) → ∃ l0 r0, e.elem = some (l0, r0) ∧
        l.sym = EqObj.subsObjQuiet names l0.sym ∧ r.sym = EqObj.subsObjQuiet names r0.sym ∧ l0.sym.Closed ∧ r0.sym.Closed := by
      intro hf l r hlr
      subst hlr
      cases he : e.elem with
      | none => simp [he, EqObj.convertElem] at hel
      | some p =>
        obtain ⟨l0, r0⟩ := p
        simp only [he, EqObj.convertElem] at hel
        split at hel
        · cases hel
        · simp only [bind_eq_ok, Except.ok.injEq, Option.some.injEq, Prod.mk.injEq] at hel
          obtain ⟨ml, _, mr, _, rfl, rfl⟩ := hel
          exact ⟨l0, r0, rfl, rfl, rfl, hcl hf l0 r0 he⟩
    have hsome : e.form = .elementary → ∀ l0 r0, e.elem = some (l0, r0) → ∃ l r, el = some (l, r) := by
      intro hf l0 r0 he
      simp only [he, EqObj.convertElem] at hel
      split at hel
      · cases hel
      · simp only [bind_eq_ok, Except.ok.injEq] at hel
        obtain ⟨ml, _, mr, _, rfl⟩ := hel
        exact ⟨_, _, rfl⟩
    refine ⟨?_, ?_⟩
    · intro K _ _ I ρ
      obtain ⟨⟨k0, hk0, hv⟩, hsd⟩ := hst I (fun a => ρ (a.ren f))
      rw [hx] at hk0; cases hk0
      refine ⟨⟨_, rfl, ?_⟩, fun side => ?_⟩
      · rw [residual_moved, ← hv]; exact Sym.eval_ren I ρ _ _
      · rw [sideVal_moved]
        obtain ⟨x, hx1, hx2⟩ := hsd side
        cases hf : e.form with
        | residual =>
          simp only [EqObj.symbolicObject, EqObj.getNode, Option.getD_none, hf, hx, ok_bind, Except.ok.injEq] at hx1
          subst hx1
          refine ⟨_, by simp only [EqObj.symbolicObject, EqObj.getNode, Option.getD_none, hf, ok_bind]; rfl, ?_⟩
          rw [← hx2]; exact Sym.eval_ren I ρ _ _
        | elementary =>
          cases he : e.elem with
          | none => simp [EqObj.symbolicObject, EqObj.getNode, hf, he] at hx1
          | some p =>
            obtain ⟨l0, r0⟩ := p
            obtain ⟨l, r, rfl⟩ := hsome hf l0 r0 he
            obtain ⟨l1, r1, h1, h2, h3, h4, h5⟩ := helem hf l r rfl
            rw [he] at h1; cases h1
            simp only [EqObj.symbolicObject, EqObj.getNode, Option.getD_none, hf, he, ok_bind, Except.ok.injEq] at hx1
            cases side with
            | lhs =>
              simp only at hx1; subst hx1
              refine ⟨l.sym, by simp only [EqObj.symbolicObject, EqObj.getNode, Option.getD_none, hf, ok_bind], ?_⟩
              rw [h2, (hquiet _ h4).1, ← hx2]; exact Sym.eval_ren I ρ _ _
            | rhs =>
              simp only at hx1; subst hx1
              refine ⟨r.sym, by simp only [EqObj.symbolicObject, EqObj.getNode, Option.getD_none, hf, ok_bind], ?_⟩
              rw [h3, (hquiet _ h5).1, ← hx2]; exact Sym.eval_ren I ρ _ _
    · intro hf l r hlr
      obtain ⟨l0, r0, _, h2, h3, h4, h5⟩ := helem hf l r hlr
      rw [h2, h3]
      exact ⟨(hquiet _ h4).2, (hquiet _ h5).2⟩

/-- Every equation of the heap stands for a statement. -/
theorem states_stable : Stable Spec.written (fun w w' => (∀ e ∈ w.es, ∃ st, e.StatesC st) → ∀ e ∈ w'.es, ∃ st, e.StatesC st) :=
  (eqInv_elem Spec.written (fun e => ∃ st, e.StatesC st) (fun st a h => ⟨st, h⟩)
    (fun t e0 e a n o d ⟨st, hst⟩ hf h => ⟨st, st.statesC hst hf h n o _⟩)
    (fun fl _ _ e e' n o names whole ⟨st, hst⟩ h => ⟨_, hst.convert h (subsNames_oneByOne names)⟩)).stable trivial

/-- An expression handed on has the value of the statement's right side. -/
theorem states_handed {es : List EqObj} (hes : ∀ e ∈ es, ∃ st, e.States st) {l : List ERef} {ss : List SObj}
    (h : Block.getEquationList es none .rhs l = .ok ss) :
    ∃ sts : List Stmt, List.Forall₂ (fun r st => ∃ e, es[r]? = some e ∧ e.States st) l sts ∧
      ∀ {K : Type} [Field K] [LinearOrder K] (I : Interp K) (ρ : Atom → K),
        ss.map (fun s => s.expr.eval I ρ) = sts.map (Spec.sideVal I ρ .rhs) := by
  have hf := getEquationList_ok h
  clear h
  induction hf with
  | nil => exact ⟨[], .nil, by intros; rfl⟩
  | cons hd _ ih =>
    obtain ⟨e, he, hs⟩ := hd
    obtain ⟨sts, h1, h2⟩ := ih
    obtain ⟨st, hst⟩ := hes e (List.mem_of_getElem? he)
    refine ⟨st :: sts, .cons ⟨e, he, hst⟩ h1, ?_⟩
    intro K _ _ I ρ
    obtain ⟨s, hs', hv⟩ := (hst I ρ).2 .rhs
    rw [hs] at hs'; cases hs'
    simp only [List.map_cons, hv, h2 I ρ]

/-- In residual form the right side is the residual. -/
theorem states_residual {K : Type} [Field K] [LinearOrder K] (I : Interp K) (ρ : Atom → K) {es : List EqObj} {l : List ERef} {sts : List Stmt}
    (h : List.Forall₂ (fun r st => ∃ e, es[r]? = some e ∧ e.States st) l sts) (hr : ∀ r ∈ l, ∀ e, es[r]? = some e → e.form = .residual) :
    sts.map (Spec.sideVal I ρ .rhs) = sts.map (Spec.residual I ρ) := by
  induction h with
  | nil => rfl
  | cons hd _ ih =>
    obtain ⟨e, he, hst⟩ := hd
    rw [List.map_cons, List.map_cons, ih (fun r h => hr r (by simp [h])), hst.side_residual (hr _ (by simp) e he) I ρ .rhs]

/-- C49 (partial): in any session of written equations, after `resolve` the equations of the
problem's models stand for statements, and the expressions handed to the solver have the values of the *right sides* of those statements.
When all equations are in residual form, as those written as expressions understood to be zero are, an assignment makes every handed expression zero
if and only if it makes the residual of every statement zero.
Missing: equations written `lhs == rhs`, whose left side is not handed on at all (`solved_system_drops_left_sides`). -/
theorem solved_system_partial (ops : List Op) (hs : Spec.Session ops) {w' : World} (h : resolve (history ops World.init) = (.ok (), w')) :
    ∃ (b : Block) (sts : List Stmt), w'.pr.block = some b ∧ Spec.Equations w' b.equations ∧
      List.Forall₂ (fun r st => ∃ e, w'.es[r]? = some e ∧ e.States st) b.equations sts ∧
      ∀ {K : Type} [Field K] [LinearOrder K] (I : Interp K) (ρ : Atom → K),
        b.equationsList.map (fun s => s.expr.eval I ρ) = sts.map (Spec.sideVal I ρ .rhs) ∧
        ((∀ r ∈ b.equations, ∀ e, w'.es[r]? = some e → e.form = .residual) →
          ((∀ s ∈ b.equationsList, s.expr.eval I ρ = some 0) ↔ ∀ st ∈ sts, Spec.residual I ρ st = some 0)) := by
  obtain ⟨b, g, hb, hg, _, _, _, _, hga, _, _, _, _, hl⟩ := resolved_block h
  have hes : ∀ e ∈ w'.es, ∃ st, e.States st := by
    rw [history_resolve ops h]
    intro e he
    obtain ⟨st, hst⟩ := states_stable.history _ hs.resolve World.init (by simp [World.init]) e he
    exact ⟨st, hst.1⟩
  obtain ⟨sts, h1, h2⟩ := states_handed hes hl
  refine ⟨b, sts, hb, gather_equations hga hg, h1, ?_⟩
  intro K _ _ I ρ
  refine ⟨h2 I ρ, fun hr => ?_⟩
  have e1 : (∀ s ∈ b.equationsList, s.expr.eval I ρ = some 0) ↔ ∀ x ∈ b.equationsList.map (fun s => s.expr.eval I ρ), x = some 0 := by simp
  have e2 : sts.map (Spec.sideVal I ρ .rhs) = sts.map (Spec.residual I ρ) := states_residual I ρ h1 hr
  rw [e1, h2 I ρ, e2, List.forall_mem_map]

/-- The equation a user states with `createEquation` stands for the statement. -/
theorem created_states (st : Stmt) {a : ResArg} (ha : st.arg = .ok a) {w w1 : World} {m : MRef} {name d : String} {c : Bool} {r : ERef}
    (hc : createEquation m name d (some a) c w = (.ok r, w1)) : ∃ e, w1.es[r]? = some e ∧ e.StatesC st := by
  cases hm : w.ms[m]? with
  | none => rw [createEquation_none hm] at hc; simp at hc
  | some mo =>
    rcases createEquation_run hm name d (some a) c with ⟨x, u, he⟩ | ⟨t, t', e, e', u, he, hi, hs, _⟩
    · rw [he] at hc; simp at hc
    · rw [he] at hc
      simp only [Prod.mk.injEq, Except.ok.injEq] at hc
      obtain ⟨rfl, rfl⟩ := hc
      obtain ⟨k, hk, rfl⟩ := EqObj.sweep_ok hs
      obtain ⟨e0, e1, hf, h1, rfl⟩ := EqObj.init_fresh hi
      exact ⟨{ e1 with name := e1.name ++ "_" ++ mo.name, owner := mo.name, objects := some k.symMap },
        by simp [World.withM, World.addE, World.withUid], st.statesC ha (Or.inl hf) h1 (e1.name ++ "_" ++ mo.name) mo.name (some k.symMap)⟩

/-- What is handed on for an equation that stands for a statement. -/
theorem handed_states {st : Stmt} {w1 w' : World} {r : ERef} {e : EqObj} (he : w1.es[r]? = some e) (hst : e.States st) (ops : List Op)
    (h : resolve (history ops w1) = (.ok (), w')) :
    ∃ b, w'.pr.block = some b ∧ ∀ i : Nat, b.equations[i]? = some r → ∃ s, b.equationsList[i]? = some s ∧
      e.symbolicObject none .rhs = .ok s ∧
      ∀ {K : Type} [Field K] [LinearOrder K] (I : Interp K) (ρ : Atom → K), s.expr.eval I ρ = Spec.sideVal I ρ .rhs st := by
  obtain ⟨b, g, hb, hg, _, _, _, _, hga, _, _, _, _, hl⟩ := resolved_block h
  have hle : w1.Le w' := by
    rw [history_resolve ops h]; exact history_le _ w1
  have he' : w'.es[r]? = some e := hle.es r e he
  refine ⟨b, hb, fun i hi => ?_⟩
  have hf := getEquationList_ok hl
  have hlt : i < b.equationsList.length := by rw [← hf.length_eq]; exact (List.getElem?_eq_some_iff.mp hi).1
  have := List.Forall₂.get hf (i := i) (List.getElem?_eq_some_iff.mp hi).1 hlt
  simp only [List.get_eq_getElem] at this
  rw [(List.getElem?_eq_some_iff.mp hi).2] at this
  obtain ⟨e2, h1, h2⟩ := this
  rw [he'] at h1; cases h1
  refine ⟨_, List.getElem?_eq_getElem hlt, h2, ?_⟩
  intro K _ _ I ρ
  obtain ⟨s, hs, hv⟩ := (hst I ρ).2 .rhs
  rw [h2] at hs; cases hs
  exact hv

/-- C49, equation by equation: the expression handed on for an equation a user stated with `createEquation` has the value of the right side
of that statement, whatever happened in between. -/
theorem handed_expression (st : Stmt) {a : ResArg} (ha : st.arg = .ok a) {w w1 w' : World} {m : MRef} {name d : String} {c : Bool} {r : ERef}
    (hc : createEquation m name d (some a) c w = (.ok r, w1)) (ops : List Op) (h : resolve (history ops w1) = (.ok (), w')) :
    ∃ b, w'.pr.block = some b ∧ ∀ i : Nat, b.equations[i]? = some r → ∃ s, b.equationsList[i]? = some s ∧
      ∀ {K : Type} [Field K] [LinearOrder K] (I : Interp K) (ρ : Atom → K), s.expr.eval I ρ = Spec.sideVal I ρ .rhs st := by
  obtain ⟨e, he, hst⟩ := created_states st ha hc
  obtain ⟨b, hb, hs⟩ := handed_states he hst.1 ops h
  refine ⟨b, hb, fun i hi => ?_⟩
  obtain ⟨s, h1, _, h2⟩ := hs i hi
  exact ⟨s, h1, h2⟩

/-- C49 and C28 (partial), for copied equations: state an equation, do anything else, incorporate the model into another one, do anything
else, and resolve.  The expression handed on for the copy of the equation has the value of the right side of the statement with the names moved to
the other model.  Missing: as in `incorporate_copies_partial`. -/
theorem handed_copy_partial (st : Stmt) {a : ResArg} (ha : st.arg = .ok a) (ops0 ops1 ops2 : List Op) {w1 w2 w3 : World} {m src : MRef}
    {name d b : String} {c : Bool} {r : ERef} (hp : Plain (ops0 ++ .eqn src name d (some a) c :: ops1))
    (hc : createEquation src name d (some a) c (history ops0 World.init) = (.ok r, w1)) {mo so : ModelObj}
    (hm : (history ops1 w1).ms[m]? = some mo) (hs : (history ops1 w1).ms[src]? = some so) (hne : m ≠ src)
    (hn : so.name ≠ "") (hu : '_' ∉ so.name.toList) (hu' : '_' ∉ mo.name.toList)
    (hown : ∀ p ∈ so.eqns, ∀ e, (history ops1 w1).es[p.2]? = some e → e.owner = so.name)
    (hr : dget so.eqns (b ++ "_" ++ so.name) = some r) (hi : incorporate m src {} (history ops1 w1) = (.ok (), w2))
    (h : resolve (history ops2 w2) = (.ok (), w3)) :
    ∃ mo' r' blk, w2.ms[m]? = some mo' ∧ dget mo'.eqns (b ++ "_" ++ mo.name) = some r' ∧ w3.pr.block = some blk ∧
      ∀ i : Nat, blk.equations[i]? = some r' → ∃ s, blk.equationsList[i]? = some s ∧ ∀ f, Spec.Moves so mo.name f →
        ∀ {K : Type} [Field K] [LinearOrder K] (I : Interp K) (ρ : Atom → K), s.expr.eval I ρ = Spec.sideVal I ρ .rhs (Spec.movedSt f st) := by
  have hw : history (ops0 ++ .eqn src name d (some a) c :: ops1) World.init = history ops1 w1 := by
    have h1 : ((Op.eqn src name d (some a) c).run (history ops0 World.init)).2 = w1 := by
      show ((createEquation src name d (some a) c >>= fun _ => PyM.pure ()) (history ops0 World.init)).2 = w1
      rw [PyM.bind_of_ok hc]; rfl
    rw [← h1]
    simp only [history, List.foldl_append, List.foldl_cons]
  rw [← hw] at hm hs hown hi
  obtain ⟨e, he, hst⟩ := created_states st ha hc
  have he1 : (history ops1 w1).es[r]? = some e := (history_le ops1 w1).es r e he
  obtain ⟨_, _, _, mo', h4, _, _, _, _, _, h10⟩ := incorporated (Interp.min (K := ℚ)) _ hp m src mo so hm hs hne hn hu hu' hown hi
  obtain ⟨r', e', n, n', q1, q2, _, _, _, _, _, _, _, _, names, whole, hcv, hren⟩ := h10 b r e hr (by rw [hw]; exact he1)
  have hst' : ∀ f, Spec.Moves so mo.name f → e'.StatesC (Spec.movedSt f st) := fun f hf => hst.convert hcv (hren f hf)
  have hany := hst.convert hcv (subsNames_oneByOne names)
  obtain ⟨blk, hb, hh⟩ := handed_states q2 hany.1 ops2 h
  refine ⟨mo', r', blk, h4, q1, hb, fun i hi => ?_⟩
  obtain ⟨s, h1, h2, _⟩ := hh i hi
  refine ⟨s, h1, fun f hf => ?_⟩
  intro K _ _ I ρ
  obtain ⟨s', hs', hv⟩ := ((hst' f hf).1 I ρ).2 .rhs
  rw [h2] at hs'; cases hs'
  exact hv

/-- Two models, the first with one variable. -/
def Ex.toCopy : List Op := [.newModel "tank" "" {} none, .newModel "valve" "" {} none, .cmd 0 (Ex.dv "x")]
def Ex.toCopyQ : Quantity := ((history Ex.toCopy World.init).qs[0]?).getD Ex.x
/-- `x - 3` -/
def Ex.copySt : Stmt := .res (.binN .sub (.q 0 Ex.toCopyQ) 3)
def Ex.copyArg : ResArg := match Ex.copySt.arg with | .ok a => a | .error _ => .other
/-- The heap after it is stated in the first model, and after the second model incorporates the first. -/
def Ex.copyW1 : World := (createEquation 0 "e" "" (some Ex.copyArg) false (history Ex.toCopy World.init)).2
def Ex.copyW2 : World := (incorporate 1 0 {} Ex.copyW1).2

/-- `x - 3` stated in the tank, copied into the valve, and only the valve added to the problem: the expression handed on is `x_valve - 3`. -/
example : Ex.copySt.arg = .ok Ex.copyArg ∧ Plain (Ex.toCopy ++ [.eqn 0 "e" "" (some Ex.copyArg) false]) ∧
    createEquation 0 "e" "" (some Ex.copyArg) false (history Ex.toCopy World.init) = (.ok 0, Ex.copyW1) ∧
    (∃ mo so : ModelObj, Ex.copyW1.ms[1]? = some mo ∧ Ex.copyW1.ms[0]? = some so ∧ so.name = "tank" ∧ mo.name = "valve" ∧ so.eqns = [("e_tank", 0)]) ∧
    Ex.copyW1.es.map EqObj.owner = ["tank"] ∧ incorporate 1 0 {} Ex.copyW1 = (.ok (), Ex.copyW2) ∧
    (resolve (history [.addModels (.leaf 1)] Ex.copyW2)).1 = .ok () ∧
    ((resolve (history [.addModels (.leaf 1)] Ex.copyW2)).2.pr.block.map fun b => (b.equations, b.equationsList.map fun s => s.expr)) =
      some ([1], [.sub (.atom (.v "x_valve")) (.num 3)]) := by
  refine ⟨?_, ?_, by unfold Ex.copyW1; exact Prod.ext (by decide +kernel) rfl, ?_, by decide +kernel, run_ok (by decide +kernel), by decide +kernel, by decide +kernel⟩
  · have : Ex.copySt.arg.toOption.isSome = true := by decide +kernel
    unfold Ex.copyArg
    cases h : Ex.copySt.arg with
    | ok a => rfl
    | error x => rw [h] at this; cases this
  · intro o ho
    simp only [Ex.toCopy, List.cons_append, List.nil_append, List.mem_cons, List.not_mem_nil, or_false] at ho
    rcases ho with rfl | rfl | rfl | rfl <;> first | trivial | exact fun _ _ => trivial
  · have h : (Ex.copyW1.ms[1]?.bind fun mo => Ex.copyW1.ms[0]?.map fun so => (so.name, mo.name, so.eqns)) =
        some ("tank", "valve", [("e_tank", 0)]) := by decide +kernel
    simp only [Option.bind_eq_some_iff, Option.map_eq_some_iff, Prod.mk.injEq] at h
    obtain ⟨mo, h1, so, h2, h3⟩ := h
    exact ⟨mo, so, h1, h2, h3⟩

/-- A model with one variable, and that variable. -/
def Ex.onevar : World := history [.newModel "m" "" {} none, .cmd 0 (Ex.dv "x")] World.init
def Ex.onevarQ : Quantity := (Ex.onevar.qs[0]?).getD Ex.x

/-- `x == 3` stated by `createEquation` in a model, which is then added to the problem. -/
example : ∃ (a : ResArg) (w1 : World), (Stmt.eqnNum (.q 0 Ex.onevarQ) 3).arg = .ok a ∧ createEquation 0 "e" "" (some a) false Ex.onevar = (.ok 0, w1) ∧
    (resolve (history [.addModels (.leaf 0)] w1)).1 = .ok () ∧
    ((resolve (history [.addModels (.leaf 0)] w1)).2.pr.block.map fun b => (b.equations, b.equationsList.map fun s => s.expr)) = some ([0], [.num 3]) := by
  refine ⟨.eqnNum (Ex.onevarQ.call 0) 3, (createEquation 0 "e" "" (some (.eqnNum (Ex.onevarQ.call 0) 3)) false Ex.onevar).2,
    rfl, Prod.ext (by decide +kernel) rfl, ?_, ?_⟩
  · decide +kernel
  · decide +kernel

/-- `x + y - 3`, `x*y - 2`: the assignment `x = 1`, `y = 2` makes both handed expressions zero. -/
example : Spec.Session Ex.alg ∧ (resolve (history Ex.alg World.init)).1 = .ok () ∧
    ((resolve (history Ex.alg World.init)).2.pr.block.map fun b => b.equationsList.map fun s =>
      s.expr.eval Ex.I fun a => if a = .v "x_m" then (1 : ℚ) else 2) = some [some 0, some 0] :=
  ⟨Ex.alg_session, by decide +kernel, by decide +kernel⟩

/-- A model with the single equation `x == 3`. -/
def Ex.three : List Op := [.newModel "m" "" {} none, .cmd 0 (Ex.dv "x"), .cmd 0 (Ex.eq_ "e" (.eqnNum (Ex.at_ "x") 3)), .addModels (.leaf 0)]

/-- C49 fails for equations written `lhs == rhs`: the only expression handed to the solver for `x == 3` is the number 3, which no assignment
makes zero, though `x = 3` satisfies the equation (its residual is zero there). -/
theorem solved_system_drops_left_sides : Spec.Session Ex.three ∧ ∃ w' b e n, resolve (history Ex.three World.init) = (.ok (), w') ∧
    w'.pr.block = some b ∧ b.equations = [0] ∧ w'.es[0]? = some e ∧ e.expr = some n ∧
    (∃ ρ : Atom → ℚ, n.sym.expr.eval Ex.I ρ = some 0) ∧
    ∀ {K : Type} [Field K] [LinearOrder K] [CharZero K] (I : Interp K) (ρ : Atom → K), ¬ ∀ s ∈ b.equationsList, s.expr.eval I ρ = some 0 := by
  refine ⟨?_, ?_⟩
  · intro o ho
    simp only [Ex.three, List.mem_cons, List.not_mem_nil, or_false] at ho
    rcases ho with rfl | rfl | rfl | rfl <;> trivial
  have h1 : (resolve (history Ex.three World.init)).1 = .ok () := by decide +kernel
  have h2 : (resolve (history Ex.three World.init)).2.pr.block.map (fun b => (b.equations, b.equationsList.map fun s => s.expr)) =
      some ([0], [.num 3]) := by decide +kernel
  have h3 : ((resolve (history Ex.three World.init)).2.es[0]?.bind fun e => e.expr).map (fun n => n.sym.expr.eval Ex.I fun _ => (3 : ℚ)) = some (some 0) := by
    decide +kernel
  generalize hr : resolve (history Ex.three World.init) = r at h1 h2 h3
  obtain ⟨o, w'⟩ := r
  simp only at h1 h2 h3
  subst h1
  simp only [Prod.mk.injEq, Option.map_eq_some_iff, Option.bind_eq_some_iff] at h2 h3
  obtain ⟨b, hb, h5, h6⟩ := h2
  obtain ⟨n, ⟨e, he, hn⟩, hv⟩ := h3
  refine ⟨w', b, e, n, rfl, hb, h5, he, hn, ⟨_, hv⟩, ?_⟩
  intro K _ _ _ I ρ h
  cases hl : b.equationsList with
  | nil => simp [hl] at h6
  | cons s t =>
    simp only [hl, List.map_cons, List.cons.injEq] at h6
    have := h s (by simp [hl])
    rw [h6.1] at this
    simp [Sym.eval] at this

end Sloth
