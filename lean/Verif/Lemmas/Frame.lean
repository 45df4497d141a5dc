import Verif.Lemmas.World

/-!
# Relations kept by every call of a session
-/

namespace Sloth
open PyM

/-- The relation holds between the heap before and after the call, whether it returns or raises. -/
def Pres (R : World → World → Prop) {α : Type} (x : PyM α) : Prop := ∀ w, R w (x w).2

/-- A reflexive and transitive relation. -/
structure PreRel (R : World → World → Prop) : Prop where
  refl : ∀ w, R w w
  trans : ∀ a b c, R a b → R b c → R a c

/-- Kinds of changes to the problem object. -/
inductive PrKind where
  | model | time | initial | conn | resolve
  deriving DecidableEq

/-- The changes calls make to the problem object. -/
inductive PrStep (w : World) : PrKind → ProblemObj → Prop where
  | model (m : MRef) (mo : ModelObj) (h : w.ms[m]? = some mo) : PrStep w .model { w.pr with
      models := dset w.pr.models mo.name m, variableDict := dupdate w.pr.variableDict mo.vars, parameterDict := dupdate w.pr.parameterDict mo.pars }
  | time (l : List String) : PrStep w .time { w.pr with timeName := some l }
  | initial (c : Dict String Rat) : PrStep w .initial { w.pr with initial := dupdate w.pr.initial c }
  | conn (k : String) (r : ERef) : PrStep w .conn { w.pr with connections := dset w.pr.connections k r }
  | build (g : Gather) (h : (dvalues w.pr.models).foldlM (Gather.model w) {} = .ok g) : PrStep w .resolve { w.pr with
      equationList := some g.eqs,
      block := some (Block.mk' w.es g.eqs (w.pr.variableDict.filter fun p => g.varNames.contains p.1)
        (w.pr.parameterDict.filter fun p => g.parNames.contains p.1)) }
  | call (b b' : Block) (h : w.pr.block = some b) (h' : b.call w.es = .ok b') : PrStep w .resolve { w.pr with block := some b' }

/-- The calls a theorem is about; the others are exempt. -/
structure Allow where
  /-- argument of an equation; arguments a user can write are never exempt -/
  arg : ResArg → Prop := fun _ => True
  /-- flags of an incorporation -/
  inc : IncFlags → Prop := fun _ => True
  /-- setting inlets -/
  inl : Prop := True
  /-- changes to the problem -/
  pr : PrKind → Prop := fun _ => True

/-- A reflexive and transitive relation that the elementary calls keep. -/
structure Elem (A : Allow) (R : World → World → Prop) : Prop extends PreRel R where
  newP : ∀ p, Pres R (newP p)
  newM : ∀ n d b p, Pres R (newModel n d b p)
  attr : ∀ m a v, Pres R (setAttr m a v)
  var : ∀ m a, Pres R (createVariable m a)
  par : ∀ m a, Pres R (createParameter m a)
  con : ∀ m a, Pres R (createConstant m a)
  built : ∀ (st : Stmt) a, st.arg = .ok a → A.arg a
  eqn : ∀ m n d a c, (∀ x, a = some x → A.arg x) → Pres R (createEquation m n d a c)
  inc : ∀ m s fl, A.inc fl → Pres R (incorporate m s fl)
  inlets : A.inl → ∀ m l n, Pres R (setInlets m l n)
  conn : ∀ m o i a, A.arg a → Pres R (createModelConnection m o i a)
  value : ∀ r v u, Pres R (setValueM r v u)
  dist : ∀ r, Pres R (distributeM r)
  pr : ∀ w k p, A.pr k → PrStep w k p → R w { w with pr := p }
  puid : ∀ w u, w.puid.getD 0 ≤ u.getD 0 → R w { w with puid := u }

/-- ... and that the totalization of inlets keeps. -/
structure Stable (A : Allow) (R : World → World → Prop) : Prop extends Elem A R where
  tot : ∀ w m mo, w.ms[m]? = some mo → mo.inlets ≠ [] → R w (totalizeInlets m w).2

/-- The call is not exempt. -/
def Op.Allowed (A : Allow) : Op → Prop
  | .eqn _ _ _ a _ => ∀ x, a = some x → A.arg x
  | .modelConn _ _ _ a => A.arg a
  | .connect _ _ outs ins a => A.pr .conn ∧ (∀ x, a = some x → A.arg x) ∧
      ∀ o i d, outs = .node o → ins = .node i → i.sub (.node o) = .ok d → A.arg (.node d)
  | .incorporate _ _ fl => A.inc fl
  | .setInlets _ _ _ => A.inl
  | .addModels _ => A.pr .model
  | .initial _ => A.pr .initial
  | .time _ => A.pr .time
  | .resolve => A.pr .resolve
  | _ => True

namespace PreRel
variable {R : World → World → Prop} (S : PreRel R)
include S

theorem bind {α β : Type} {x : PyM α} {f : α → PyM β} (hx : Pres R x) (hf : ∀ a, Pres R (f a)) : Pres R (x >>= f) := by
  intro w
  have h1 := hx w
  rw [PyM.bind_run]
  cases h : x w with
  | mk r w1 =>
    rw [h] at h1
    cases r with
    | ok a => exact S.trans _ _ _ h1 (hf a w1)
    | error e => exact h1

/-- The same, knowing what the first part returned. -/
theorem bind' {α β : Type} {x : PyM α} {f : α → PyM β} (hx : Pres R x) (hf : ∀ a w w', x w = (.ok a, w') → Pres R (f a)) :
    Pres R (x >>= f) := by
  intro w
  have h1 := hx w
  rw [PyM.bind_run]
  cases h : x w with
  | mk r w1 =>
    rw [h] at h1
    cases r with
    | ok a => exact S.trans _ _ _ h1 (hf a w w1 h w1)
    | error e => exact h1

theorem bindL {α β : Type} {x : Except Err α} {f : α → PyM β} (hf : ∀ a, x = .ok a → Pres R (f a)) : Pres R (PyM.lift x >>= f) := by
  cases x with
  | ok a => exact hf a rfl
  | error e => exact fun w => S.refl w

theorem ret {α : Type} (a : α) : Pres R (PyM.pure a) := fun w => S.refl w
theorem lift {α : Type} (x : Except Err α) : Pres R (lift x) := fun w => S.refl w
theorem raise {α : Type} (e : Err) : Pres R (raise e : PyM α) := fun w => S.refl w
theorem getQ (r : Ref) : Pres R (getQ r) := fun w => by unfold PyM.getQ; split <;> exact S.refl w
theorem getE (r : Ref) : Pres R (getE r) := fun w => by unfold PyM.getE; split <;> exact S.refl w
theorem getM (r : Ref) : Pres R (getM r) := fun w => by unfold PyM.getM; split <;> exact S.refl w
theorem getP (r : Ref) : Pres R (getP r) := fun w => by unfold PyM.getP; split <;> exact S.refl w
theorem getPr : Pres R getPr := fun w => S.refl w

theorem each {α : Type} (l : List α) {f : α → PyM Unit} (hf : ∀ a, Pres R (f a)) : Pres R (each l f) := by
  induction l with
  | nil => exact S.ret ()
  | cons a t ih => exact S.bind (hf a) fun _ => ih

theorem collect {α β : Type} (l : List α) {f : α → PyM β} (hf : ∀ a, Pres R (f a)) : Pres R (collect l f) := by
  induction l with
  | nil => exact S.ret []
  | cons a t ih => exact S.bind (hf a) fun _ => S.bind ih fun _ => S.ret _

theorem when (b : Bool) {x : PyM Unit} (hx : Pres R x) : Pres R (PyM.when b x) := by
  cases b
  · exact S.ret ()
  · exact hx

theorem rethrow {α : Type} {x : PyM α} (hx : Pres R x) (e : Err) : Pres R (PyM.rethrow x e) := by
  intro w
  have h1 := hx w
  unfold PyM.rethrow
  cases h : x w with
  | mk r w1 =>
    rw [h] at h1
    cases r <;> exact h1

theorem void {α : Type} {x : PyM α} (hx : Pres R x) : Pres R x.void := S.bind hx fun _ => S.ret _

theorem lookupM (m : MRef) (p : APath) : Pres R (lookupM m p) := fun w => S.refl w

end PreRel

namespace Elem
variable {R : World → World → Prop} {A : Allow} (S : Elem A R)
include S

theorem cmd (m : MRef) (c : Cmd) : Pres R (c.run m) := by
  cases c with
  | var attr a => exact S.bind (S.var m a) fun _ => S.attr _ _ _
  | par attr a => exact S.bind (S.par m a) fun _ => S.attr _ _ _
  | con attr a => exact S.bind (S.con m a) fun _ => S.attr _ _ _
  | eqn attr n d st c =>
    refine S.bind' (fun w => S.refl w) fun a w w' h => S.bind (S.eqn _ _ _ _ _ ?_) fun _ => S.attr _ _ _
    rintro x ⟨⟩
    simp only [AStmt.eval, Prod.mk.injEq, bind_eq_ok] at h
    obtain ⟨⟨s, _, h⟩, _⟩ := h
    exact S.built s a h
  | setValue p v u =>
    refine S.bind (S.lookupM _ _) fun _ => S.bind ?_ fun _ => S.value _ _ _
    cases v with
    | qty p => exact S.bind (S.lookupM _ _) fun _ => S.ret _
    | _ => exact S.ret _
  | distribute p => exact S.bind (S.lookupM _ _) fun _ => S.dist _
  | fail e => exact S.raise e

theorem inletNodes (a : String) (l : List MRef) : Pres R (inletNodes a l) :=
  S.collect _ fun _ => S.bind (S.lookupM _ _) fun _ => S.ret _

theorem fixInlets (m : MRef) (a : String) (l : List MRef) : Pres R (fixInlets m a l) :=
  S.each _ fun _ => S.bind (S.lookupM _ _) fun x => S.bindL fun n h => S.bind (S.eqn _ _ _ _ _ (by
    rintro _ ⟨⟩
    exact S.built (.res (.binN .sub (.q x.1 x.2) x.2.value)) _ (by simp [Stmt.arg, PyExpr.build, ENode.op, h]))) fun _ => S.ret _

theorem totalizeMin (m : MRef) (a : String) (ns : List ENode) (st : String) : Pres R (totalizeMin m a ns st) :=
  S.bind (S.lookupM _ _) fun _ => S.bindL fun k hk => by
    obtain ⟨x, hx⟩ := minNodes_error ns
    rw [hx] at hk; cases hk

theorem totalizeBody (m : MRef) (l : List MRef) : Pres R (totalizeBody m l) :=
  S.bind (S.inletNodes _ _) fun _ => S.bind (S.fixInlets _ _ _) fun _ => S.bind (S.rethrow (S.inletNodes _ _) _) fun _ =>
    S.bind (S.rethrow (S.fixInlets _ _ _) _) fun _ => S.bind (S.totalizeMin _ _ _ _) fun _ => S.totalizeMin _ _ _ _

theorem ensureInlet (m : MRef) (a d : String) (u : UnitObj) (l : String) : Pres R (ensureInlet m a d u l) :=
  S.bind (S.getM _) fun _ => S.when _ (S.cmd _ _)

theorem totalizeInlets (hi : A.inc { eqns := false, rewrite := false }) (m : MRef) : Pres R (totalizeInlets m) :=
  S.bind (S.ensureInlet _ _ _ _ _) fun _ => S.bind (S.ensureInlet _ _ _ _ _) fun _ => S.bind (S.ensureInlet _ _ _ _ _) fun _ =>
    S.bind (S.ensureInlet _ _ _ _ _) fun _ => S.bind (S.ensureInlet _ _ _ _ _) fun _ => S.bind (S.getM _) fun _ =>
    S.bind (S.each _ fun _ => S.inc _ _ _ hi) fun _ => S.bind (S.getM _) fun _ => S.bind (S.getP _) fun _ =>
    S.when _ (S.totalizeBody _ _)

/-- When the incorporation used for inlets is not exempt, nothing else has to be shown. -/
theorem stable (hi : A.inc { eqns := false, rewrite := false }) : Stable A R := ⟨S, fun w m _ _ _ => S.totalizeInlets hi m w⟩

end Elem

namespace Stable
variable {R : World → World → Prop} {A : Allow} (S : Stable A R)
include S

theorem cmds (m : MRef) (l : List Cmd) : Pres R (each l (Cmd.run m)) := S.each l fun _ => S.cmd _ _

theorem call (m : MRef) : Pres R (Model.call m) := by
  refine S.bind (S.getM _) fun mo => S.bind (S.cmds _ _) fun _ => S.bind (S.cmds _ _) fun _ => S.bind (S.cmds _ _) fun _ => ?_
  intro w
  cases h : w.ms[m]? with
  | none => rw [PyM.bind_of_error (getM_none h)]; exact S.refl w
  | some mo' =>
    rw [PyM.bind_of_ok (getM_of h)]
    have h1 : R w ((PyM.when (!mo'.inlets.isEmpty) (Sloth.totalizeInlets m)) w).2 := by
      cases hi : mo'.inlets with
      | nil => exact S.refl w
      | cons a t => exact S.tot w m mo' h (by simp [hi])
    rw [PyM.bind_run]
    cases h2 : (PyM.when (!mo'.inlets.isEmpty) (Sloth.totalizeInlets m)) w with
    | mk r w1 =>
      rw [h2] at h1
      cases r with
      | ok a => exact S.trans _ _ _ h1 (S.cmds _ _ w1)
      | error e => exact h1

theorem addModel (hp : A.pr .model) (m : MRef) : Pres R (addModel m) := fun w => by
  unfold Sloth.addModel
  cases h : w.ms[m]? with
  | none => rw [PyM.bind_of_error (getM_none h)]; exact S.refl w
  | some mo => rw [PyM.bind_of_ok (getM_of h)]; exact S.pr w _ _ hp (.model m mo h)

mutual
theorem addModels (hp : A.pr .model) : (t : MTree) → Pres R (addModels t)
  | .leaf m => by rw [Sloth.addModels]; exact S.addModel hp m
  | .list l => by rw [Sloth.addModels]; exact addModelsList hp l
theorem addModelsList (hp : A.pr .model) : (l : List MTree) → Pres R (addModelsList l)
  | [] => by rw [Sloth.addModelsList]; exact S.ret ()
  | t :: ts => by rw [Sloth.addModelsList]; exact S.bind (addModels hp t) fun _ => addModelsList hp ts
end

theorem buildEquationBlock (hp : A.pr .resolve) : Pres R buildEquationBlock := fun w => by
  unfold Sloth.buildEquationBlock
  split
  · exact S.refl w
  · rename_i g hg; exact S.pr w _ _ hp (.build g hg)

theorem callBlock (hp : A.pr .resolve) : Pres R callBlock := fun w => by
  unfold Sloth.callBlock
  split
  · exact S.refl w
  · rename_i b hb
    split
    · exact S.refl w
    · rename_i b' hb'; exact S.pr w _ _ hp (.call b b' hb hb')

theorem resolve (hp : A.pr .resolve) : Pres R resolve :=
  S.bind (S.bind S.getPr fun _ => S.each _ fun _ => S.call _) fun _ => S.bind (S.buildEquationBlock hp) fun _ => S.callBlock hp

theorem connExpr (i o : List Ref) (a : Option ResArg) : Pres R (connExpr i o a) := by
  cases a with
  | some a => exact S.ret _
  | none =>
    exact S.bind (S.collect _ fun _ => S.bind (S.getQ _) fun _ => S.ret _) fun _ =>
      S.bind (S.collect _ fun _ => S.bind (S.getQ _) fun _ => S.ret _) fun _ => S.bind (S.lift _) fun _ => S.bind (S.lift _) fun _ => S.lift _

/-- A connection with the argument `0` raises. -/
theorem connOther (m : MRef) (o i : List Ref) : Pres R (createModelConnection m o i .other) := fun w => by
  cases h : w.ms[m]? with
  | none => unfold createModelConnection; rw [PyM.bind_of_error (getM_none h)]; exact S.refl w
  | some mo =>
    unfold createModelConnection
    rw [PyM.bind_of_ok (getM_of h)]
    rcases collect_getQ o w with ⟨qo, ho, ho'⟩ | ho
    swap
    · rw [PyM.bind_of_error ho]; exact S.refl w
    rw [PyM.bind_of_ok ho]
    rcases collect_getQ i w with ⟨qi, hi, hi'⟩ | hi
    swap
    · rw [PyM.bind_of_error hi]; exact S.refl w
    rw [PyM.bind_of_ok hi]
    cases hv : (qi.all (fun q => q.kind == .variable) && qo.all (fun q => q.kind == .variable)) with
    | false => exact S.refl w
    | true => exact S.refl w

theorem directConnection (a : MRef) (o : List Ref) (b : MRef) (i : List Ref) (x : ResArg) (hp : A.pr .conn) (hx : A.arg x ∨ x = .other) :
    Pres R (createDirectConnection a o b i x) :=
  S.bind (S.collect _ S.getQ) fun _ => S.bind (S.collect _ S.getQ) fun _ =>
    S.bind (hx.elim (fun h => S.conn _ _ _ _ h) (fun h => h ▸ S.connOther _ _ _)) fun _ => S.bind (S.getM _) fun _ =>
    S.bind (S.getM _) fun _ w => S.pr w _ _ hp (.conn _ _)

theorem ptagIf (b : Bool) : Pres R (ptagIf b) := fun w => by
  unfold PyM.ptagIf; split
  · exact S.puid w _ (Nat.le_succ _)
  · exact S.refl w

theorem connection (s : ConnSrc) (m : MRef) (o i : ConnArg) (a : Option ResArg)
    (ha : (Op.connect s m o i a).Allowed A) : Pres R (createConnection s m o i a) := by
  have hx : ∀ x w w', Sloth.connExpr i.refs o.refs a w = (.ok x, w') → A.arg x ∨ x = .other := by
    intro x w w' hx
    cases a with
    | some a =>
      simp only [Sloth.connExpr, PyM.pure_run, Prod.mk.injEq, Except.ok.injEq] at hx
      exact Or.inl (ha.2.1 x (by rw [hx.1]))
    | none =>
      obtain ⟨_, ins, outs, _, _, _, _, h⟩ := connExpr_none hx
      split at h
      · exact Or.inl (S.built _ _ h)
      · exact Or.inr h
  have hv : Pres R (connectVars s m o i a) := by
    cases s with
    | model m1 =>
      exact S.bind (S.getM _) fun _ => S.bind (S.lift _) fun _ => S.bind (S.getM _) fun _ => S.bind (S.lift _) fun _ =>
        S.bind (S.when _ (S.raise _)) fun _ => S.bind' (S.connExpr _ _ _) fun x w w' h => S.directConnection _ _ _ _ _ ha.1 (hx x w w' h)
    | str x =>
      exact S.bind (S.getM _) fun _ => S.bind (S.lift _) fun _ => S.bind (S.when _ (S.raise _)) fun _ =>
        S.bind' (S.connExpr _ _ _) fun x w w' h => S.bind ((hx x w w' h).elim (fun h => S.conn _ _ _ _ h) (fun h => h ▸ S.connOther _ _ _))
          fun _ => S.raise _
    | other =>
      exact S.bind (S.getM _) fun _ => S.bind (S.lift _) fun _ => S.bind (S.when _ (S.raise _)) fun _ =>
        S.bind' (S.connExpr _ _ _) fun x w w' h => S.bind ((hx x w w' h).elim (fun h => S.conn _ _ _ _ h) (fun h => h ▸ S.connOther _ _ _))
          fun _ => S.raise _
  have hn : ∀ x y, o = .node x → i = .node y → Pres R (connectNodes s m x y) := by
    intro x y hx hy
    refine S.bind ?_ fun _ => S.bind (S.getM _) fun _ => S.bindL fun d hd => S.bind (S.eqn _ _ _ _ _ (by
      rintro _ ⟨⟩; exact ha.2.2 x y d hx hy hd)) fun _ => S.ret _
    cases s with
    | str x => exact S.bind (S.ptagIf _) fun _ => S.ret _
    | model m => exact S.bind (S.getM _) fun _ => S.ret _
    | other => exact S.raise _
  unfold createConnection
  split
  · exact hn _ _ rfl rfl
  · exact hv

/-- Every call of a session keeps a stable relation. -/
theorem op (o : Op) (ha : o.Allowed A) : Pres R o.run := by
  cases o with
  | newPorts => exact S.void (S.newP _)
  | newModel n d b p => exact S.void (S.newM _ _ _ _)
  | var m a => exact S.void (S.var _ _)
  | par m a => exact S.void (S.par _ _)
  | con m a => exact S.void (S.con _ _)
  | eqn m n d a c => exact S.void (S.eqn _ _ _ _ _ ha)
  | cmd m c => exact S.cmd _ _
  | setValue r v u => exact S.value _ _ _
  | incorporate m s fl => exact S.inc _ _ _ ha
  | setInlets m l n => exact S.inlets ha _ _ _
  | modelConn m o i a => exact S.void (S.conn _ _ _ _ ha)
  | call m => exact S.call _
  | connect s m o i a => exact S.connection _ _ _ _ _ ha
  | addModels t => exact S.addModels ha t
  | initial c => exact fun w => S.pr w _ _ ha (.initial c)
  | time n => exact fun w => S.pr w _ _ ha (.time n)
  | resolve => exact S.resolve ha

theorem history (ops : List Op) (ha : ∀ o ∈ ops, o.Allowed A) (w : World) : R w (history ops w) := by
  induction ops generalizing w with
  | nil => exact S.refl w
  | cons o t ih => exact S.trans _ _ _ (S.op o (ha o (by simp)) w) (ih (fun o h => ha o (by simp [h])) _)

end Stable

end Sloth
