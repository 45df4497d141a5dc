import Verif.Props.Several
import Verif.Props.SimLinks

/-!
# C113: for each of several problems, the program is one with that problem alone
-/

namespace Sloth
open PyM

/-! ## Calls that do not concern the problem -/

/-- The heap with the problem changed. -/
def World.mapPr (f : ProblemObj → ProblemObj) (w : World) : World := { w with pr := f w.pr }

/-- Changing the problem before the call or after it makes no difference. -/
def Past (f : ProblemObj → ProblemObj) {α : Type} (x : PyM α) : Prop := ∀ w, x (w.mapPr f) = ((x w).1, (x w).2.mapPr f)

namespace Past
variable {f : ProblemObj → ProblemObj} {α β : Type}

theorem ret (a : α) : Past f (PyM.pure a) := fun _ => rfl
theorem raise (e : Err) : Past f (PyM.raise e : PyM α) := fun _ => rfl
theorem lift (x : Except Err α) : Past f (PyM.lift x) := fun _ => rfl
theorem bind {x : PyM α} {g : α → PyM β} (hx : Past f x) (hg : ∀ a, Past f (g a)) : Past f (x >>= g) := fun w => by
  rw [PyM.bind_run, PyM.bind_run, hx w]
  rcases x w with ⟨e | a, w1⟩
  · rfl
  · exact hg a w1
theorem getM (r : MRef) : Past f (PyM.getM r) := fun w => by
  cases h : w.ms[r]? <;> simp [PyM.getM, World.mapPr, h]
theorem getQ (r : Ref) : Past f (PyM.getQ r) := fun w => by
  cases h : w.qs[r]? <;> simp [PyM.getQ, World.mapPr, h]
theorem getE (r : ERef) : Past f (PyM.getE r) := fun w => by
  cases h : w.es[r]? <;> simp [PyM.getE, World.mapPr, h]
theorem getP (r : PRef) : Past f (PyM.getP r) := fun w => by
  cases h : w.ps[r]? <;> simp [PyM.getP, World.mapPr, h]
theorem setM (r : MRef) (x : ModelObj) : Past f (PyM.setM r x) := fun _ => rfl
theorem setQ (r : Ref) (x : Quantity) : Past f (PyM.setQ r x) := fun _ => rfl
theorem setP (r : PRef) (x : Ports) : Past f (PyM.setP r x) := fun _ => rfl
theorem newQ (x : Quantity) : Past f (PyM.newQ x) := fun _ => rfl
theorem newE (x : EqObj) : Past f (PyM.newE x) := fun _ => rfl
theorem newM (x : ModelObj) : Past f (PyM.newM x) := fun _ => rfl
theorem newP (x : Ports) : Past f (PyM.newP x) := fun _ => rfl
theorem tagIf (b : Bool) : Past f (PyM.tagIf b) := fun _ => by cases b <;> rfl
theorem ptagIf (b : Bool) : Past f (PyM.ptagIf b) := fun _ => by cases b <;> rfl
theorem each (l : List α) {g : α → PyM Unit} (hg : ∀ a, Past f (g a)) : Past f (PyM.each l g) := by
  induction l with
  | nil => exact ret ()
  | cons a t ih => exact bind (hg a) fun _ => ih
theorem collect (l : List α) {g : α → PyM β} (hg : ∀ a, Past f (g a)) : Past f (PyM.collect l g) := by
  induction l with
  | nil => exact ret []
  | cons a t ih => exact bind (hg a) fun _ => bind ih fun _ => ret _
theorem when (b : Bool) {x : PyM Unit} (hx : Past f x) : Past f (PyM.when b x) := by
  cases b
  · exact ret ()
  · exact hx
theorem rethrow {x : PyM α} (e : Err) (hx : Past f x) : Past f (PyM.rethrow x e) := fun w => by
  unfold PyM.rethrow
  rw [hx w]
  rcases x w with ⟨e | a, w1⟩ <;> rfl
theorem void {x : PyM α} (hx : Past f x) : Past f x.void := bind hx fun _ => ret ()

theorem setAttr (m : MRef) (a : String) (v : Attr) : Past f (setAttr m a v) := bind (getM m) fun _ => setM m _
theorem expose (m : MRef) (mo : ModelObj) (r : Ref) (t : String) : Past f (expose m mo r t) := by
  unfold Sloth.expose
  split
  · exact setM m _
  · split
    · exact setM m _
    · exact raise _
theorem createVariable (m : MRef) (a : VarArgs) : Past f (createVariable m a) :=
  bind (getM m) fun _ => bind (newQ _) fun _ => bind (setM m _) fun _ => bind (when _ (expose m _ _ _)) fun _ => ret _
theorem createParameter (m : MRef) (a : ParArgs) : Past f (createParameter m a) :=
  bind (getM m) fun _ => bind (newQ _) fun _ => bind (setM m _) fun _ => ret _
theorem createConstant (m : MRef) (a : ParArgs) : Past f (createConstant m a) :=
  bind (getM m) fun _ => bind (newQ _) fun _ => bind (setM m _) fun _ => ret _
theorem createEquation (m : MRef) (n d : String) (a : Option ResArg) (c : Bool) : Past f (createEquation m n d a c) :=
  bind (getM m) fun _ => bind (tagIf _) fun _ => bind (tagIf _) fun _ => bind (lift _) fun _ => bind (lift _) fun _ => bind (when _ (lift _)) fun _ =>
    bind (newE _) fun _ => bind (setM m _) fun _ => ret _
theorem incorporate (m s : MRef) (fl : IncFlags) : Past f (incorporate m s fl) := by
  have h1 : ∀ b r, Past f (addVariableDirectly m b r) := fun b r => bind (getM m) fun _ => bind (getQ r) fun _ => bind (newQ _) fun _ => bind (setM m _) fun _ =>
    bind (when _ (raise _)) fun _ => setAttr m _ _
  have h2 : ∀ b r, Past f (addParameterDirectly m b r) := fun b r => bind (getM m) fun _ => bind (getQ r) fun _ => bind (newQ _) fun _ => bind (setM m _) fun _ => setAttr m _ _
  have h3 : ∀ b r, Past f (addConstantDirectly m b r) := fun b r => bind (getM m) fun _ => bind (getQ r) fun _ => bind (newQ _) fun _ => bind (setM m _) fun _ => setAttr m _ _
  have h4 : ∀ n w b r, Past f (addEquationDirectly m n w b r) := fun n w b r => bind (getM m) fun _ => bind (getE r) fun _ => bind (lift _) fun _ => bind (newE _) fun _ =>
    bind (setM m _) fun _ => setAttr m _ _
  exact bind (getM s) fun _ => bind (when _ (each _ (h1 _))) fun _ => bind (getM s) fun _ => bind (when _ (each _ (h2 _))) fun _ => bind (getM s) fun _ =>
    bind (when _ (each _ (h3 _))) fun _ => bind (getM s) fun _ => bind (getM m) fun _ => when _ (each _ (h4 _ _ _))
theorem setInlets (m : MRef) (l : List MRef) (n : String) : Past f (setInlets m l n) :=
  bind (getM m) fun _ => bind (getP _) fun _ => bind (setP _ _) fun _ => setM m _
theorem modelConn (m : MRef) (o i : List Ref) (a : ResArg) : Past f (createModelConnection m o i a) :=
  bind (getM m) fun _ => bind (collect _ getQ) fun _ => bind (collect _ getQ) fun _ => bind (when _ (raise _)) fun _ => bind (tagIf _) fun _ => bind (lift _) fun _ =>
    bind (tagIf _) fun _ => bind (lift _) fun _ => bind (lift _) fun _ => bind (newE _) fun _ => bind (setM m _) fun _ => ret _

theorem toPy (w : World) (m : MRef) (x : AExpr) : x.toPy (w.mapPr f) m = x.toPy w m := by
  induction x with
  | q p => rfl
  | bin op a b ha hb => simp only [AExpr.toPy, ha, hb]
  | binN op a n ha => simp only [AExpr.toPy, ha]
  | nbin op n a ha => simp only [AExpr.toPy, ha]
  | fn g a ha => simp only [AExpr.toPy, ha]
  | mmN k a n ha => simp only [AExpr.toPy, ha]
  | diff x t => cases t <;> rfl
theorem eval (m : MRef) (st : AStmt) : Past f (st.eval m) := fun w => by
  unfold AStmt.eval
  have : st.toStmt (w.mapPr f) m = st.toStmt w m := by cases st <;> simp only [AStmt.toStmt, toPy]
  rw [this]
theorem lookupM (m : MRef) (p : APath) : Past f (lookupM m p) := fun _ => rfl
theorem aval (m : MRef) (v : AVal) : Past f (v.eval m) := by
  cases v with
  | qty p => exact bind (lookupM m p) fun _ => ret _
  | float x => exact ret _
  | int x => exact ret _
  | other => exact ret _
theorem setValueM (r : Ref) (v : SVArg) (u : Option UnitObj) : Past f (setValueM r v u) := bind (getQ r) fun _ => bind (lift _) fun _ => setQ r _
theorem cmd (m : MRef) (c : Cmd) : Past f (c.run m) := by
  cases c with
  | var a x => exact bind (createVariable m x) fun _ => setAttr m _ _
  | par a x => exact bind (createParameter m x) fun _ => setAttr m _ _
  | con a x => exact bind (createConstant m x) fun _ => setAttr m _ _
  | eqn a n d st c => exact bind (eval m st) fun _ => bind (createEquation m _ _ _ _) fun _ => setAttr m _ _
  | setValue p v u => exact bind (lookupM m p) fun _ => bind (aval m v) fun _ => setValueM _ _ _
  | distribute p => exact bind (lookupM m p) fun _ => bind (getQ _) fun _ => setQ _ _
  | fail e => exact raise e
theorem totalize (m : MRef) : Past f (totalizeInlets m) := by
  have h1 : ∀ a d u t, Past f (ensureInlet m a d u t) := fun a d u t => bind (getM m) fun _ => when _ (cmd m _)
  have h2 : ∀ a l, Past f (inletNodes a l) := fun a l => collect l fun s => bind (lookupM s _) fun _ => ret _
  have h3 : ∀ a l, Past f (fixInlets m a l) := fun a l => each l fun s => bind (lookupM s _) fun _ => bind (lift _) fun _ => bind (createEquation m _ _ _ _) fun _ => ret _
  have h4 : ∀ a ns t, Past f (totalizeMin m a ns t) := fun a ns t => bind (lookupM m _) fun _ => bind (lift _) fun _ => bind (lift _) fun _ => bind (createEquation m _ _ _ _) fun _ => setAttr m _ _
  have h5 : ∀ l, Past f (totalizeBody m l) := fun l => bind (h2 _ _) fun _ => bind (h3 _ _) fun _ => bind (rethrow _ (h2 _ _)) fun _ => bind (rethrow _ (h3 _ _)) fun _ =>
    bind (h4 _ _ _) fun _ => h4 _ _ _
  exact bind (h1 _ _ _ _) fun _ => bind (h1 _ _ _ _) fun _ => bind (h1 _ _ _ _) fun _ => bind (h1 _ _ _ _) fun _ => bind (h1 _ _ _ _) fun _ => bind (getM m) fun _ =>
    bind (each _ fun s => incorporate m s _) fun _ => bind (getM m) fun _ => bind (getP _) fun _ => when _ (h5 _)
theorem call (m : MRef) : Past f (Model.call m) :=
  bind (getM m) fun _ => bind (each _ (cmd m)) fun _ => bind (each _ (cmd m)) fun _ => bind (each _ (cmd m)) fun _ => bind (getM m) fun _ => bind (when _ (totalize m)) fun _ =>
    each _ (cmd m)
theorem connExpr (i o : List Ref) (a : Option ResArg) : Past f (connExpr i o a) := by
  cases a with
  | some a => exact ret a
  | none => exact bind (collect _ fun r => bind (getQ r) fun _ => ret _) fun _ => bind (collect _ fun r => bind (getQ r) fun _ => ret _) fun _ => bind (lift _) fun _ => bind (lift _) fun _ => lift _
theorem connectNodes (s : ConnSrc) (m : MRef) (o i : ENode) : Past f (connectNodes s m o i) := by
  have h : Past f s.text := by
    cases s with
    | model m => exact bind (getM m) fun _ => ret _
    | str s => exact bind (ptagIf _) fun _ => ret _
    | other => exact raise _
  exact bind h fun _ => bind (getM m) fun _ => bind (lift _) fun _ => bind (createEquation m _ _ _ _) fun _ => ret _

end Past

/-- Reading the problem, if what is read is not changed. -/
theorem Past.getPr {f : ProblemObj → ProblemObj} {α : Type} {g : ProblemObj → PyM α} (hg : ∀ p, Past f (g p)) (hf : ∀ p, g (f p) = g p) : Past f (PyM.getPr >>= g) := fun w => by
  show g (f w.pr) (w.mapPr f) = _
  rw [hf]
  exact hg w.pr w

/-- Calls of methods of the problem; a connection of two expressions is only an equation of the receiving model. -/
def Spec.concerns : Op → Bool
  | .addModels _ | .initial _ | .time _ | .resolve => true
  | .connect _ _ (.node _) (.node _) _ => false
  | .connect .. => true
  | _ => false

theorem op_past {f : ProblemObj → ProblemObj} {o : Op} (h : Spec.concerns o = false) : Past f o.run := by
  cases o with
  | newPorts => exact (Past.newP _).void
  | newModel n d b p => exact Past.void (Past.bind (Past.getP _) fun _ => Past.newM _)
  | var m a => exact (Past.createVariable m a).void
  | par m a => exact (Past.createParameter m a).void
  | con m a => exact (Past.createConstant m a).void
  | eqn m n d a c => exact (Past.createEquation m n d a c).void
  | cmd m c => exact Past.cmd m c
  | setValue r v u => exact Past.setValueM r v u
  | incorporate m s fl => exact Past.incorporate m s fl
  | setInlets m l n => exact Past.setInlets m l n
  | modelConn m o i a => exact (Past.modelConn m o i a).void
  | call m => exact Past.call m
  | connect s m o i a =>
    cases o <;> cases i <;> first | (exact Past.connectNodes s m _ _) | (cases h)
  | addModels t => cases h
  | initial c => cases h
  | time n => cases h
  | resolve => cases h

/-- The problem under another name. -/
def ProblemObj.named (n : String) (p : ProblemObj) : ProblemObj := { p with name := n }

theorem addModel_named (n : String) (m : MRef) : Past (ProblemObj.named n) (addModel m) :=
  Past.bind (Past.getM m) fun _ _ => rfl

mutual
theorem addModels_named (n : String) : (t : MTree) → Past (ProblemObj.named n) (addModels t)
  | .leaf m => by rw [addModels]; exact addModel_named n m
  | .list l => by rw [addModels]; exact addModelsList_named n l
theorem addModelsList_named (n : String) : (l : List MTree) → Past (ProblemObj.named n) (addModelsList l)
  | [] => by rw [addModelsList]; exact Past.ret ()
  | t :: ts => by rw [addModelsList]; exact Past.bind (addModels_named n t) fun _ => addModelsList_named n ts
end

theorem resolve_named (n : String) : Past (ProblemObj.named n) resolve := by
  refine Past.bind (Past.getPr (fun p => Past.each _ Past.call) fun p => rfl) fun _ => Past.bind (fun w => ?_) fun _ w => ?_
  · have hg : (dvalues (w.mapPr (ProblemObj.named n)).pr.models).foldlM (Gather.model (w.mapPr (ProblemObj.named n))) {} =
      (dvalues w.pr.models).foldlM (Gather.model w) {} := rfl
    unfold buildEquationBlock
    rw [hg]
    cases (dvalues w.pr.models).foldlM (Gather.model w) {} <;> rfl
  · unfold callBlock
    have hb : (w.mapPr (ProblemObj.named n)).pr.block = w.pr.block := rfl
    rw [hb]
    cases w.pr.block with
    | none => rfl
    | some b =>
      have he : b.call (w.mapPr (ProblemObj.named n)).es = b.call w.es := rfl
      simp only [he]
      cases b.call w.es <;> rfl

theorem connectVars_named (n : String) (s : ConnSrc) (m : MRef) (o i : ConnArg) (a : Option ResArg) : Past (ProblemObj.named n) (connectVars s m o i a) := by
  cases s with
  | model k =>
    refine Past.bind (Past.getM m) fun _ => Past.bind (Past.lift _) fun _ => Past.bind (Past.getM k) fun _ => Past.bind (Past.lift _) fun _ => Past.bind (Past.when _ (Past.raise _)) fun _ =>
      Past.bind (Past.connExpr _ _ _) fun _ => Past.bind (Past.collect _ Past.getQ) fun _ => Past.bind (Past.collect _ Past.getQ) fun _ => Past.bind (Past.modelConn m _ _ _) fun _ =>
      Past.bind (Past.getM k) fun _ => Past.bind (Past.getM m) fun _ w => rfl
  | str t =>
    exact Past.bind (Past.getM m) fun _ => Past.bind (Past.lift _) fun _ => Past.bind (Past.when _ (Past.raise _)) fun _ =>
      Past.bind (Past.connExpr _ _ _) fun _ => Past.bind (Past.modelConn m _ _ _) fun _ => Past.raise _
  | other =>
    exact Past.bind (Past.getM m) fun _ => Past.bind (Past.lift _) fun _ => Past.bind (Past.when _ (Past.raise _)) fun _ =>
      Past.bind (Past.connExpr _ _ _) fun _ => Past.bind (Past.modelConn m _ _ _) fun _ => Past.raise _

/-- No call depends on the name of the problem. -/
theorem op_named (n : String) (o : Op) : Past (ProblemObj.named n) o.run := by
  by_cases h : Spec.concerns o = false
  · exact op_past h
  · cases o with
    | addModels t => exact addModels_named n t
    | initial c => exact fun _ => rfl
    | time c => exact fun _ => rfl
    | resolve => exact resolve_named n
    | connect s m o i a =>
      cases o <;> cases i <;> first | (exact connectVars_named n s m _ _ a) | (exact absurd rfl h)
    | _ => exact absurd rfl h

/-! ## Calls on other problems -/

theorem Past.withPr {o : Op} (h : Spec.concerns o = false) (w : World) (p : ProblemObj) : (o.run (w.withPr p)).2 = (o.run w).2.withPr p := by
  have : o.run (w.withPr p) = ((o.run w).1, (o.run w).2.withPr p) := op_past (f := fun _ => p) h w
  rw [this]

theorem history_append (a b : List Op) (w : World) : history (a ++ b) w = history b (history a w) := by simp [history]

/-- Calls of models, up to the first that raises. -/
theorem calls_other (l : List MRef) (w : World) (p : ProblemObj) : ∃ ops : List Op, (∀ o ∈ ops, Spec.concerns o = false) ∧
    history ops (w.withPr p) = (each l Model.call w).2.withPr p := by
  induction l generalizing w with
  | nil => exact ⟨[], fun _ h => (by cases h), rfl⟩
  | cons a t ih =>
    have h1 : ((Op.call a).run (w.withPr p)).2 = (Model.call a w).2.withPr p := Past.withPr (o := .call a) rfl w p
    rw [each_cons, PyM.bind_run]
    rcases hr : Model.call a w with ⟨e | u, w1⟩
    · exact ⟨[.call a], by simp [Spec.concerns], by rw [hr] at h1; exact h1⟩
    · obtain ⟨ops, h2, h3⟩ := ih w1
      refine ⟨.call a :: ops, fun o ho => ?_, ?_⟩
      · rcases List.mem_cons.mp ho with rfl | ho
        · rfl
        · exact h2 o ho
      · rw [hr] at h1
        show history ops ((Op.call a).run (w.withPr p)).2 = _
        rw [h1, h3]

theorem build_withPr (w : World) (p : ProblemObj) : (buildEquationBlock w).2.withPr p = w.withPr p := by
  unfold buildEquationBlock
  cases (dvalues w.pr.models).foldlM (Gather.model w) {} <;> rfl

theorem callBlock_withPr (w : World) (p : ProblemObj) : (callBlock w).2.withPr p = w.withPr p := by
  unfold callBlock
  cases w.pr.block with
  | none => rfl
  | some b =>
    dsimp only
    cases b.call w.es <;> rfl

/-- The two ways a call can be followed by calls that leave all but the problem as it is. -/
theorem bind_withPr {α β : Type} {x : PyM α} {g : α → PyM β} (w : World) (p : ProblemObj) (h : ∀ a w, (g a w).2.withPr p = w.withPr p) :
    ((x >>= g) w).2.withPr p = (x w).2.withPr p := by
  rw [PyM.bind_run]
  rcases x w with ⟨e | a, w1⟩
  · rfl
  · exact h a w1

/-- Reading first. -/
theorem read_withPr {α β : Type} {x : PyM α} {g : α → PyM β} {w : World} (hx : (x w).2 = w) {P : World → Prop} (h0 : P w) (h : ∀ a, P ((g a w).2)) : P ((x >>= g) w).2 := by
  rw [PyM.bind_run]
  rcases hr : x w with ⟨e | a, w1⟩
  · rw [hr] at hx
    have : w1 = w := hx
    rw [this]; exact h0
  · rw [hr] at hx
    have : w1 = w := hx
    rw [this]; exact h a

theorem getM_same (m : MRef) (w : World) : (PyM.getM m w).2 = w := by unfold PyM.getM; split <;> rfl
theorem getQ_same (r : Ref) (w : World) : (PyM.getQ r w).2 = w := by unfold PyM.getQ; split <;> rfl
theorem when_raise_same (b : Bool) (e : Err) (w : World) : (PyM.when b (PyM.raise e) w).2 = w := by cases b <;> rfl

theorem bind_same {α β : Type} {x : PyM α} {g : α → PyM β} {w : World} (hx : (x w).2 = w) (h : ∀ a, (g a w).2 = w) : ((x >>= g) w).2 = w :=
  read_withPr (P := fun v => v = w) hx rfl h

theorem collect_same {α β : Type} (l : List α) {g : α → PyM β} (h : ∀ a w, (g a w).2 = w) (w : World) : (PyM.collect l g w).2 = w := by
  induction l with
  | nil => rfl
  | cons a t ih => exact bind_same (h a w) fun _ => bind_same ih fun _ => rfl

theorem connExpr_same (i o : List Ref) (a : Option ResArg) (w : World) : (connExpr i o a w).2 = w := by
  cases a with
  | some a => rfl
  | none =>
    have h : ∀ r w, ((PyM.getQ r >>= fun q => PyM.pure (q.call r)) w).2 = w := fun r w => bind_same (getQ_same r w) fun _ => rfl
    exact bind_same (collect_same _ h w) fun _ => bind_same (collect_same _ h w) fun _ => bind_same rfl fun _ => bind_same rfl fun _ => rfl

/-- A connection of variables is, for the other problems, at most a connection equation of the receiving model. -/
theorem connectVars_other (s : ConnSrc) (m : MRef) (o i : ConnArg) (a : Option ResArg) (w : World) (p : ProblemObj) : ∃ ops : List Op, (∀ o ∈ ops, Spec.concerns o = false) ∧
    history ops (w.withPr p) = (connectVars s m o i a w).2.withPr p := by
  have stop : ∃ ops : List Op, (∀ o ∈ ops, Spec.concerns o = false) ∧ history ops (w.withPr p) = w.withPr p := ⟨[], fun _ h => (by cases h), rfl⟩
  have go : ∀ (e : ResArg) {β : Type} (g : ERef → PyM β), (∀ r w, (g r w).2.withPr p = w.withPr p) → ∃ ops : List Op, (∀ o ∈ ops, Spec.concerns o = false) ∧
      history ops (w.withPr p) = ((createModelConnection m o.refs i.refs e >>= g) w).2.withPr p := by
    intro e β g hg
    refine ⟨[.modelConn m o.refs i.refs e], by simp [Spec.concerns], ?_⟩
    rw [bind_withPr w p hg]
    show ((Op.modelConn m o.refs i.refs e).run (w.withPr p)).2 = _
    rw [Past.withPr rfl]
    show (((createModelConnection m o.refs i.refs e) >>= fun _ => PyM.pure ()) w).2.withPr p = _
    exact bind_withPr w p fun _ _ => rfl
  cases s with
  | model k =>
    refine read_withPr (P := fun v => ∃ ops : List Op, (∀ o ∈ ops, Spec.concerns o = false) ∧ history ops (w.withPr p) = v.withPr p) (getM_same m w) stop fun _ =>
      read_withPr (P := fun v => ∃ ops : List Op, (∀ o ∈ ops, Spec.concerns o = false) ∧ history ops (w.withPr p) = v.withPr p) rfl stop fun _ =>
      read_withPr (P := fun v => ∃ ops : List Op, (∀ o ∈ ops, Spec.concerns o = false) ∧ history ops (w.withPr p) = v.withPr p) (getM_same k w) stop fun _ =>
      read_withPr (P := fun v => ∃ ops : List Op, (∀ o ∈ ops, Spec.concerns o = false) ∧ history ops (w.withPr p) = v.withPr p) rfl stop fun _ =>
      read_withPr (P := fun v => ∃ ops : List Op, (∀ o ∈ ops, Spec.concerns o = false) ∧ history ops (w.withPr p) = v.withPr p) (when_raise_same _ _ w) stop fun _ =>
      read_withPr (P := fun v => ∃ ops : List Op, (∀ o ∈ ops, Spec.concerns o = false) ∧ history ops (w.withPr p) = v.withPr p) (connExpr_same _ _ _ w) stop fun e =>
      read_withPr (P := fun v => ∃ ops : List Op, (∀ o ∈ ops, Spec.concerns o = false) ∧ history ops (w.withPr p) = v.withPr p) (collect_same _ getQ_same w) stop fun _ =>
      read_withPr (P := fun v => ∃ ops : List Op, (∀ o ∈ ops, Spec.concerns o = false) ∧ history ops (w.withPr p) = v.withPr p) (collect_same _ getQ_same w) stop fun _ =>
      go e _ fun r v => ?_
    rw [bind_withPr v p fun mo v => ?_, getM_same]
    rw [bind_withPr v p fun mo v => ?_, getM_same]
    rfl
  | str t =>
    exact read_withPr (P := fun v => ∃ ops : List Op, (∀ o ∈ ops, Spec.concerns o = false) ∧ history ops (w.withPr p) = v.withPr p) (getM_same m w) stop fun _ =>
      read_withPr (P := fun v => ∃ ops : List Op, (∀ o ∈ ops, Spec.concerns o = false) ∧ history ops (w.withPr p) = v.withPr p) rfl stop fun _ =>
      read_withPr (P := fun v => ∃ ops : List Op, (∀ o ∈ ops, Spec.concerns o = false) ∧ history ops (w.withPr p) = v.withPr p) (when_raise_same _ _ w) stop fun _ =>
      read_withPr (P := fun v => ∃ ops : List Op, (∀ o ∈ ops, Spec.concerns o = false) ∧ history ops (w.withPr p) = v.withPr p) (connExpr_same _ _ _ w) stop fun e =>
      go e _ fun r v => rfl
  | other =>
    exact read_withPr (P := fun v => ∃ ops : List Op, (∀ o ∈ ops, Spec.concerns o = false) ∧ history ops (w.withPr p) = v.withPr p) (getM_same m w) stop fun _ =>
      read_withPr (P := fun v => ∃ ops : List Op, (∀ o ∈ ops, Spec.concerns o = false) ∧ history ops (w.withPr p) = v.withPr p) rfl stop fun _ =>
      read_withPr (P := fun v => ∃ ops : List Op, (∀ o ∈ ops, Spec.concerns o = false) ∧ history ops (w.withPr p) = v.withPr p) (when_raise_same _ _ w) stop fun _ =>
      read_withPr (P := fun v => ∃ ops : List Op, (∀ o ∈ ops, Spec.concerns o = false) ∧ history ops (w.withPr p) = v.withPr p) (connExpr_same _ _ _ w) stop fun e =>
      go e _ fun r v => rfl

/-- What a call on one problem does to the rest of the heap, calls that do not concern the problem do as well. -/
theorem op_other (o : Op) (w : World) (p : ProblemObj) : ∃ ops : List Op, (∀ o ∈ ops, Spec.concerns o = false) ∧
    history ops (w.withPr p) = (o.run w).2.withPr p := by
  by_cases h : Spec.concerns o = false
  · exact ⟨[o], by simpa using h, Past.withPr h w p⟩
  · cases o with
    | addModels t =>
      obtain ⟨q, hq, -⟩ := addModels_heap t w
      refine ⟨[], fun _ h => (by cases h), ?_⟩
      show w.withPr p = (addModels t w).2.withPr p
      rw [hq]; rfl
    | initial c => exact ⟨[], fun _ h => (by cases h), rfl⟩
    | time c => exact ⟨[], fun _ h => (by cases h), rfl⟩
    | resolve =>
      obtain ⟨ops, h1, h2⟩ := calls_other (dvalues w.pr.models) w p
      refine ⟨ops, h1, h2.trans ?_⟩
      refine (bind_withPr (x := reloadModels) w p fun _ v => ?_).symm
      rw [bind_withPr v p fun _ v => callBlock_withPr v p, build_withPr]
    | connect s m o i a =>
      cases o <;> cases i <;> first | (exact connectVars_other s m _ _ a w p) | (exact absurd rfl h)
    | _ => exact absurd rfl h

/-! ## The theorems -/

/-- The calls a program makes on problem `j` once it exists; `n` problems exist at the beginning. -/
def Spec.callsOn (j : Nat) : Nat → List MOp → List Op
  | _, [] => []
  | n, .newProblem _ :: t => Spec.callsOn j (n + 1) t
  | n, .on i o :: t => if i = j ∧ j < n then o :: Spec.callsOn j n t else Spec.callsOn j n t

/-- Every problem could have come about in a program where it is the only one. -/
structure Views (s : Many) (done : Nat → List Op) : Prop where
  fresh : ∃ ops : List Op, history ops World.init = s.w.withPr {} ∧ ∀ o ∈ ops, Spec.concerns o = false
  view : ∀ j p, s.prs[j]? = some p → ∃ ops : List Op, history ops World.init = s.w.withPr (p.named "") ∧ ops.filter Spec.concerns = (done j).filter Spec.concerns
  none : ∀ j, s.prs.length ≤ j → done j = []

theorem filter_quiet {l : List Op} (h : ∀ o ∈ l, Spec.concerns o = false) : l.filter Spec.concerns = [] :=
  List.filter_eq_nil_iff.mpr fun o ho => by simp [h o ho]

theorem views_history (ops : List MOp) {s : Many} {done : Nat → List Op} (h : Views s done) : Views (Many.history ops s) fun j => done j ++ Spec.callsOn j s.prs.length ops := by
  induction ops generalizing s done with
  | nil => simpa [Many.history, Spec.callsOn] using h
  | cons o t ih =>
    cases o with
    | newProblem n =>
      have : Views (MOp.run (.newProblem n) s) done := by
        refine ⟨h.fresh, fun j p hp => ?_, fun j hj => h.none j (by simp [MOp.run] at hj; omega)⟩
        by_cases hj : j < s.prs.length
        · exact h.view j p (by simpa [MOp.run, List.getElem?_append_left hj] using hp)
        · have hd := h.none j (by omega)
          have : p = { name := n } := by
            simp only [MOp.run] at hp
            rw [List.getElem?_append_right (by omega)] at hp
            have := List.mem_of_getElem? hp
            simpa using this
          obtain ⟨ops, h1, h2⟩ := h.fresh
          exact ⟨ops, by rw [h1, this]; rfl, by rw [hd, filter_quiet h2]; rfl⟩
      have := ih this
      simpa [Spec.callsOn, MOp.run, Many.history] using this
    | on i o =>
      cases hi : s.prs[i]? with
      | none =>
        have hs : MOp.run (.on i o) s = s := by simp [MOp.run, Many.on, hi]
        have := ih (s := MOp.run (.on i o) s) (done := done) (by rw [hs]; exact h)
        have hc : ∀ j, Spec.callsOn j s.prs.length (.on i o :: t) = Spec.callsOn j s.prs.length t := fun j => by
          rw [Spec.callsOn, if_neg]
          rintro ⟨rfl, hj⟩
          rw [List.getElem?_eq_getElem hj] at hi; cases hi
        rw [hs] at this
        simp only [hc]
        simpa [Many.history, hs] using this
      | some p =>
        have hil : i < s.prs.length := by
          by_contra hn
          rw [List.getElem?_eq_none (by omega)] at hi; cases hi
        have hs : MOp.run (.on i o) s = { w := (o.run (s.w.withPr p)).2.withPr s.w.pr, prs := s.prs.set i (o.run (s.w.withPr p)).2.pr } := by simp [MOp.run, Many.on, hi]
        have hv : Views (MOp.run (.on i o) s) fun j => if i = j then done j ++ [o] else done j := by
          rw [hs]
          refine ⟨?_, fun j q hq => ?_, fun j hj => ?_⟩
          · obtain ⟨ops, h1, h2⟩ := h.fresh
            obtain ⟨ops', h3, h4⟩ := op_other o (s.w.withPr p) {}
            refine ⟨ops ++ ops', ?_, fun o ho => (List.mem_append.mp ho).elim (h2 o) (h3 o)⟩
            rw [history_append, h1]; exact h4
          · by_cases hij : i = j
            · subst hij
              simp only [List.getElem?_set_self hil, Option.some.injEq] at hq
              subst hq
              obtain ⟨ops, h1, h2⟩ := h.view i p hi
              refine ⟨ops ++ [o], ?_, by simp [h2]⟩
              rw [history_append, h1]
              have := op_named "" o (s.w.withPr p)
              show (o.run ((s.w.withPr p).mapPr (ProblemObj.named ""))).2 = _
              rw [this]; rfl
            · simp only [List.getElem?_set_ne hij] at hq
              obtain ⟨ops, h1, h2⟩ := h.view j q hq
              obtain ⟨ops', h3, h4⟩ := op_other o (s.w.withPr p) (q.named "")
              refine ⟨ops ++ ops', ?_, by simp [h2, filter_quiet h3, hij]⟩
              rw [history_append, h1]; exact h4
          · have hj : s.prs.length ≤ j := by simpa using hj
            simp [show i ≠ j by omega, h.none j hj]
        have := ih hv
        have hl : (MOp.run (.on i o) s).prs.length = s.prs.length := by rw [hs]; simp
        rw [hl] at this
        refine (?_ : (fun j => (if i = j then done j ++ [o] else done j) ++ Spec.callsOn j s.prs.length t) = fun j => done j ++ Spec.callsOn j s.prs.length (.on i o :: t)) ▸ this
        funext j
        rw [Spec.callsOn]
        by_cases hij : i = j
        · subst hij; simp [hil]
        · simp [hij]

/-- **C113.** After any program with any number of problems, each of them is (up to its name) as in a program where it is the only problem: one with the same
calls on that problem in the same order, and other calls that do not concern problems.  Any further call on it answers as there. -/
theorem one_problem_view (ops : List MOp) {j : Nat} {p : ProblemObj} (hp : (Many.history ops { w := World.init }).prs[j]? = some p) :
    ∃ ops' : List Op, history ops' World.init = (Many.history ops { w := World.init }).w.withPr (p.named "") ∧
      ops'.filter Spec.concerns = (Spec.callsOn j 0 ops).filter Spec.concerns ∧
      ∀ o : Op, ((Many.history ops { w := World.init }).on j o.run).1 = (o.run (history ops' World.init)).1 := by
  have h0 : Views { w := World.init } fun _ => [] := ⟨⟨[], rfl, fun _ h => by cases h⟩, fun j p hp => (by cases hp), fun _ _ => rfl⟩
  obtain ⟨ops', h1, h2⟩ := (views_history ops h0).view j p hp
  refine ⟨ops', h1, h2, fun o => ?_⟩
  rw [Many.on_some hp, h1]
  have := op_named "" o ((Many.history ops { w := World.init }).w.withPr p)
  show _ = (o.run (((Many.history ops { w := World.init }).w.withPr p).mapPr (ProblemObj.named ""))).1
  rw [this]

/-- The names given to the problems of a program, in order. -/
def Spec.namesGiven : List MOp → List String
  | [] => []
  | .newProblem n :: t => n :: Spec.namesGiven t
  | .on _ _ :: t => Spec.namesGiven t

/-- **C113.** A problem keeps the name it was created with. -/
theorem problem_names (ops : List MOp) (s : Many) : (Many.history ops s).prs.map (·.name) = s.prs.map (·.name) ++ Spec.namesGiven ops := by
  induction ops generalizing s with
  | nil => simp [Many.history, Spec.namesGiven]
  | cons o t ih =>
    have hc : Many.history (o :: t) s = Many.history t (o.run s) := rfl
    rw [hc, ih]
    cases o with
    | newProblem n => simp [MOp.run, Spec.namesGiven]
    | on i o =>
      congr 1
      cases hi : s.prs[i]? with
      | none => simp [MOp.run, Many.on, hi]
      | some p =>
        have hn : (o.run (s.w.withPr p)).2.pr.name = p.name := by
          have := op_named p.name o (s.w.withPr p)
          have h : (s.w.withPr p).mapPr (ProblemObj.named p.name) = s.w.withPr p := rfl
          rw [h] at this
          have h2 := congrArg (fun x => x.2.pr.name) this
          exact h2
        simp only [MOp.run, Many.on, hi, List.map_set, hn]
        refine List.ext_getElem? fun k => ?_
        by_cases hk : i = k
        · subst hk
          rw [List.getElem?_set_self']
          simp [hi]
        · rw [List.getElem?_set_ne hk]

/-- **C113.** With several problems, a call raises nothing that it could not raise with one. -/
theorem several_raise_only (ops : List MOp) {j : Nat} {p : ProblemObj} (hp : (Many.history ops { w := World.init }).prs[j]? = some p) (o : Op) {e : Err}
    (he : ((Many.history ops { w := World.init }).on j o.run).1 = .error e) :
    e = Spec.noObject ∨ Spec.MayRaise ((Many.history ops { w := World.init }).w.withPr p) e o := by
  obtain ⟨ops', h1, -, h2⟩ := one_problem_view ops hp
  rw [h2 o] at he
  rcases raises_only ⟨ops', rfl⟩ o he with h | h
  · exact .inl h
  · rw [h1] at h
    cases o <;> exact .inr h

/-- A program whose calls are made on problems that exist, with objects that exist, as Python's always are. -/
def Spec.SensibleM : List MOp → Many → Prop
  | [], _ => True
  | .newProblem n :: t, s => Spec.SensibleM t ((MOp.newProblem n).run s)
  | .on i o :: t, s => i < s.prs.length ∧ Spec.Uses s.w.sizes o ∧ Spec.SensibleM t ((MOp.on i o).run s)

/-- Every problem refers to objects that exist. -/
def LinkedM (s : Many) : Prop := Spec.Linked (s.w.withPr {}) ∧ ∀ p ∈ s.prs, Spec.ProblemIn s.w.sizes p

theorem linked_withPr {w : World} (h : Spec.Linked w) {p : ProblemObj} (hp : Spec.ProblemIn w.sizes p) : Spec.Linked (w.withPr p) := ⟨h.ms, h.es, h.ps, hp, h.default⟩

theorem problemIn_empty (n : String) (s : Sizes) : Spec.ProblemIn s { name := n } :=
  ⟨fun _ h => (by cases h), fun _ h => (by cases h), fun _ h => (by cases h), fun _ h => (by cases h), fun _ h => (by cases h), fun _ h => by cases h⟩

theorem linkedM_history (ops : List MOp) {s : Many} (hs : LinkedM s) (h : Spec.SensibleM ops s) : LinkedM (Many.history ops s) := by
  induction ops generalizing s with
  | nil => exact hs
  | cons o t ih =>
    cases o with
    | newProblem n =>
      refine ih (s := (MOp.newProblem n).run s) ⟨hs.1, fun p hp => ?_⟩ h
      rcases List.mem_append.mp hp with hp | hp
      · exact hs.2 p hp
      · rw [List.mem_singleton.mp hp]; exact problemIn_empty n _
    | on i o =>
      obtain ⟨hi, hu, ht⟩ := h
      refine ih (s := (MOp.on i o).run s) ?_ ht
      have hg : s.prs[i]? = some s.prs[i] := List.getElem?_eq_getElem hi
      have hl : Spec.Linked (s.w.withPr s.prs[i]) := linked_withPr hs.1 (hs.2 _ (List.getElem_mem hi))
      have hm := op_meets hl hu
      simp only [MOp.run, Many.on, hg]
      refine ⟨linked_withPr hm.linked (problemIn_empty "" _), fun p hp => ?_⟩
      rcases List.mem_or_eq_of_mem_set hp with hp | rfl
      · exact ProblemIn.mono hm.grows (hs.2 p hp)
      · exact hm.linked.pr

/-- **C113.** In such a program no call ever meets an object that does not exist ... -/
theorem several_never_dangling (ops : List MOp) (h : Spec.SensibleM ops { w := World.init }) {j : Nat} {p : ProblemObj}
    (hp : (Many.history ops { w := World.init }).prs[j]? = some p) (o : Op) (ho : Spec.Uses (Many.history ops { w := World.init }).w.sizes o) :
    ((Many.history ops { w := World.init }).on j o.run).1 ≠ .error Spec.noObject := by
  have hl := linkedM_history ops (s := { w := World.init }) ⟨linked_init, fun _ h => by cases h⟩ h
  rw [Many.on_some hp]
  exact (op_meets (linked_withPr hl.1 (hl.2 p (List.mem_of_getElem? hp))) ho).err

/-- ... so it raises only what is listed for it. -/
theorem several_raise_listed (ops : List MOp) (h : Spec.SensibleM ops { w := World.init }) {j : Nat} {p : ProblemObj}
    (hp : (Many.history ops { w := World.init }).prs[j]? = some p) (o : Op) (ho : Spec.Uses (Many.history ops { w := World.init }).w.sizes o) {e : Err}
    (he : ((Many.history ops { w := World.init }).on j o.run).1 = .error e) : Spec.MayRaise ((Many.history ops { w := World.init }).w.withPr p) e o :=
  (several_raise_only ops hp o he).resolve_left fun hn => several_never_dangling ops h hp o ho (by rw [he, hn])

/-- The hypotheses hold for the program `Ex.shared` of Props/Several.lean followed by a connection made in problem 0: problem 1 exists, had one call of its own,
both keep their names, and a connection of an output to an output is refused there. -/
example : (Many.history (Ex.shared ++ [Ex.joinIn0]) { w := World.init }).prs.map (·.name) = ["p", "q"] ∧
    Spec.callsOn 1 0 (Ex.shared ++ [Ex.joinIn0]) = [.addModels (.leaf 1)] ∧ Spec.SensibleM (Ex.shared ++ [Ex.joinIn0]) { w := World.init } ∧
    Spec.Uses (Many.history (Ex.shared ++ [Ex.joinIn0]) { w := World.init }).w.sizes .resolve ∧
    ((Many.history (Ex.shared ++ [Ex.joinIn0]) { w := World.init }).on 1 (Op.connect (.model 0) 1 (.var 0) (.var 0) none).run).1.toOption = none ∧
    (Many.history (Ex.shared ++ [Ex.joinIn0]) { w := World.init }).prs[1]?.isSome = true := by
  refine ⟨by decide +kernel, rfl, ⟨by decide +kernel, ?_, by decide +kernel, ?_, by decide +kernel, ?_, by decide +kernel, ?_, by decide +kernel, ?_, by decide +kernel, ?_,
    by decide +kernel, ?_, by decide +kernel, ?_, by decide +kernel, ?_, trivial⟩, trivial, by decide +kernel, by decide +kernel⟩
  · exact ⟨fun c hc => (by cases hc), fun _ h => by cases h⟩
  · exact ⟨fun c hc => (by cases hc), fun _ h => by cases h⟩
  · exact ⟨by decide +kernel, trivial⟩
  · exact ⟨by decide +kernel, trivial⟩
  · exact ⟨by decide +kernel, pathIn_own _ _⟩
  · exact ⟨by decide +kernel, pathIn_own _ _⟩
  · show Spec.TreeIn _ _
    rw [Spec.TreeIn, Spec.TreesIn, Spec.TreesIn, Spec.TreesIn, Spec.TreeIn, Spec.TreeIn]
    exact ⟨by decide +kernel, by decide +kernel, trivial⟩
  · show Spec.TreeIn _ _
    rw [Spec.TreeIn]; decide +kernel
  · exact ⟨(show 0 < _ by decide +kernel), by decide +kernel, (show 0 < _ by decide +kernel), (show 1 < _ by decide +kernel), fun _ h => by cases h⟩

end Sloth
