import Verif.Lemmas.EqInv
import Verif.Props.Blocks
import Verif.Props.Models

/-!
# The exceptions calls can end with (C98)
-/

namespace Sloth
open PyM

/-! ## The table -/

namespace Spec

/-- A reference to an object that does not exist; Python programs hold none. -/
abbrev noObject : Err := .exception "dangling"

/-- Reading an attribute as a quantity: there is none, or it is an equation. -/
def ofAttr : List Err := [.attributeError, .typeError]

/-- Evaluating an expression. -/
def ofExpr : List Err := ofAttr ++ [.dimensionalCoherence, .keyError, .zeroDivision, .valueError, .absentRequiredObject]

/-- Stating an equation: nothing is given, something else than an expression, sides of different dimensions (or of units with different keys),
objects of other models. -/
def ofRes : Option ResArg → Bool → List Err
  | none, _ | some (.eqnOther _), _ => [.attributeError]
  | some .other, _ => [.unexpectedValue]
  | some (.eqn _ _), c => [.dimensionalCoherence, .keyError] ++ if c then [.unexpectedObjectDeclaration] else []
  | some (.eqnNum _ _), c | some (.node _), c => if c then [.unexpectedObjectDeclaration] else []

/-- Setting a value. -/
def ofVal : SVArg → Option UnitObj → List Err
  | .qty _, none => [.dimensionalCoherence, .keyError, .unexpectedValue]
  | .qty _, some _ => [.dimensionalCoherence, .unexpectedValue]
  | .float _, _ | .int _, none => []
  | .int _, some _ => [.unexpectedValue, .keyError]
  | .other, _ => [.unexpectedValue]

/-- The statements of declarations. -/
def ofCmd : Cmd → List Err
  | .var _ a => if a.exposed ∧ a.vtype ≠ "input" ∧ a.vtype ≠ "output" then [.keyError] else []
  | .par _ _ | .con _ _ => []
  | .eqn _ _ _ _ c => ofExpr ++ if c then [.unexpectedObjectDeclaration] else []
  | .setValue _ _ _ => ofAttr ++ [.dimensionalCoherence, .keyError, .unexpectedValue]
  | .distribute _ => ofAttr
  | .fail e => [e]

/-- Declarations. -/
def ofBody (b : Body) : List Err := (b.cons ++ b.pars ++ b.vars ++ b.eqns).flatMap ofCmd

/-- Totalizing inlets. -/
def ofTot : List Err := ofAttr ++ [.keyError, .absentRequiredObject, .unexpectedObjectDeclaration, .unexpectedValue]

/-- Calling a model. -/
def ofModel (mo : ModelObj) : List Err := ofBody mo.body ++ if mo.inlets = [] then [] else ofTot

/-- Incorporating a model: exposed variables; equations that cannot be rewritten. -/
def ofInc (fl : IncFlags) : List Err := (if fl.vars ∨ fl.eqns then [.keyError] else []) ++ if fl.eqns then [.attributeError] else []

/-- Connecting. -/
def ofConn : ConnArg → ConnArg → List Err
  | .node _, .node _ => [.absentRequiredObject, .dimensionalCoherence, .keyError]
  | _, _ => [.unexpectedValue, .attributeError, .exposedVariable, .dimensionalCoherence, .keyError]

/-- What a call can end with. -/
def MayRaise (w : World) (e : Err) : Op → Prop
  | .newPorts | .newModel _ _ _ _ | .par _ _ | .con _ _ | .setInlets _ _ _ | .addModels _ | .initial _ | .time _ => False
  | .var _ a => e ∈ ofCmd (.var "" a)
  | .eqn _ _ _ a c => e ∈ ofRes a c
  | .cmd _ c => e ∈ ofCmd c
  | .setValue _ v u => e ∈ ofVal v u
  | .incorporate _ _ fl => e ∈ ofInc fl
  | .modelConn _ _ _ a => e = .unexpectedValue ∨ e ∈ ofRes (some a) false
  | .connect _ _ o i _ => e ∈ ofConn o i
  | .call m => ∃ mo, w.ms[m]? = some mo ∧ e ∈ ofModel mo
  | .resolve => ∃ m ∈ dvalues w.pr.models, ∃ mo, w.ms[m]? = some mo ∧ e ∈ ofModel mo

end Spec

/-! ## Calls that raise only what is listed -/

/-- Only these exceptions are raised. -/
def Raises {α : Type} (l : List Err) (x : PyM α) : Prop := ∀ w e, (x w).1 = .error e → e = Spec.noObject ∨ e ∈ l

/-- A computation without effects raises only these exceptions. -/
def Errs {α : Type} (l : List Err) (x : Except Err α) : Prop := ∀ e, x = .error e → e ∈ l

namespace Errs
variable {α β : Type} {l : List Err}

theorem ok (a : α) : Errs l (.ok a) := fun _ h => by cases h
theorem err {e : Err} (h : e ∈ l) : Errs l (.error e : Except Err α) := fun _ he => by cases he; exact h
theorem bind {x : Except Err α} {f : α → Except Err β} (hx : Errs l x) (hf : ∀ a, x = .ok a → Errs l (f a)) : Errs l (x >>= f) := by
  cases x with
  | ok a => exact hf a rfl
  | error e => exact fun e' h => by cases h; exact hx e rfl
theorem mono {l' : List Err} {x : Except Err α} (h : Errs l x) (hl : ∀ e ∈ l, e ∈ l') : Errs l' x := fun e he => hl e (h e he)
theorem mapM {l0 : List α} {f : α → Except Err β} (h : ∀ a ∈ l0, Errs l (f a)) : Errs l (l0.mapM f) := by
  induction l0 with
  | nil => exact ok _
  | cons a t ih =>
    rw [List.mapM_cons]
    exact bind (h a (List.mem_cons_self ..)) fun _ _ => bind (ih fun b hb => h b (List.mem_cons_of_mem _ hb)) fun _ _ => ok _
theorem foldlM {l0 : List α} {f : β → α → Except Err β} (h : ∀ b, ∀ a ∈ l0, Errs l (f b a)) (b : β) : Errs l (l0.foldlM f b) := by
  induction l0 generalizing b with
  | nil => exact ok _
  | cons a t ih => exact bind (h b a (List.mem_cons_self ..)) fun b' _ => ih (fun b a ha => h b a (List.mem_cons_of_mem _ ha)) b'
end Errs

namespace Raises
variable {α β : Type} {l : List Err}

theorem ret (a : α) : Raises l (PyM.pure a) := fun _ _ h => by cases h
theorem bind {x : PyM α} {f : α → PyM β} (hx : Raises l x) (hf : ∀ a, Raises l (f a)) : Raises l (x >>= f) := fun w e h => by
  rw [PyM.bind_run] at h
  rcases hr : x w with ⟨e' | a, w1⟩
  · rw [hr] at h
    cases h
    exact hx w e (by rw [hr])
  · rw [hr] at h
    exact hf a w1 e h
theorem bindL {x : Except Err α} {f : α → PyM β} (hx : Errs l x) (hf : ∀ a, x = .ok a → Raises l (f a)) : Raises l (PyM.lift x >>= f) := by
  cases x with
  | ok a => exact hf a rfl
  | error e => exact fun w e' h => by cases h; exact .inr (hx e rfl)
theorem lift {x : Except Err α} (hx : Errs l x) : Raises l (PyM.lift x) := fun _ e h => .inr (hx e h)
theorem raise {e : Err} (h : e ∈ l) : Raises l (PyM.raise e : PyM α) := fun _ _ he => by cases he; exact .inr h
theorem mono {l' : List Err} {x : PyM α} (h : Raises l x) (hl : ∀ e ∈ l, e ∈ l') : Raises l' x := fun w e he => (h w e he).imp id (hl e)
theorem getM (r : MRef) : Raises l (PyM.getM r) := fun w e h => by
  unfold PyM.getM at h; split at h <;> cases h; exact .inl rfl
theorem getQ (r : Ref) : Raises l (PyM.getQ r) := fun w e h => by
  unfold PyM.getQ at h; split at h <;> cases h; exact .inl rfl
theorem getE (r : ERef) : Raises l (PyM.getE r) := fun w e h => by
  unfold PyM.getE at h; split at h <;> cases h; exact .inl rfl
theorem getP (r : PRef) : Raises l (PyM.getP r) := fun w e h => by
  unfold PyM.getP at h; split at h <;> cases h; exact .inl rfl
theorem getPr : Raises l PyM.getPr := fun w e h => by cases h
theorem setM (r : MRef) (mo : ModelObj) : Raises l (PyM.setM r mo) := fun w e h => by cases h
theorem setQ (r : Ref) (q : Quantity) : Raises l (PyM.setQ r q) := fun w e h => by cases h
theorem setP (r : PRef) (p : Ports) : Raises l (PyM.setP r p) := fun w e h => by cases h
theorem setPr (p : ProblemObj) : Raises l (PyM.setPr p) := fun w e h => by cases h
theorem newQ (q : Quantity) : Raises l (PyM.newQ q) := fun w e h => by cases h
theorem newE (q : EqObj) : Raises l (PyM.newE q) := fun w e h => by cases h
theorem newM (q : ModelObj) : Raises l (PyM.newM q) := fun w e h => by cases h
theorem newP (q : Ports) : Raises l (PyM.newP q) := fun w e h => by cases h
theorem tagIf (b : Bool) : Raises l (PyM.tagIf b) := fun w e h => by unfold PyM.tagIf at h; split at h <;> cases h
theorem ptagIf (b : Bool) : Raises l (PyM.ptagIf b) := fun w e h => by unfold PyM.ptagIf at h; split at h <;> cases h
theorem each (l0 : List α) {f : α → PyM Unit} (hf : ∀ a ∈ l0, Raises l (f a)) : Raises l (PyM.each l0 f) := by
  induction l0 with
  | nil => exact ret ()
  | cons a t ih => exact bind (hf a (List.mem_cons_self ..)) fun _ => ih fun b hb => hf b (List.mem_cons_of_mem _ hb)
theorem collect (l0 : List α) {f : α → PyM β} (hf : ∀ a ∈ l0, Raises l (f a)) : Raises l (PyM.collect l0 f) := by
  induction l0 with
  | nil => exact ret []
  | cons a t ih => exact bind (hf a (List.mem_cons_self ..)) fun _ => bind (ih fun b hb => hf b (List.mem_cons_of_mem _ hb)) fun _ => ret _
theorem when {b : Bool} {x : PyM Unit} (hx : b = true → Raises l x) : Raises l (PyM.when b x) := by
  cases b
  · exact ret ()
  · exact hx rfl
theorem rethrow {x : PyM α} {e : Err} (h : e ∈ l) : Raises l (PyM.rethrow x e) := fun w e' he => by
  unfold PyM.rethrow at he
  split at he <;> cases he
  exact .inr h
theorem void {x : PyM α} (hx : Raises l x) : Raises l x.void := bind hx fun _ => ret ()
end Raises

/-! ## Expressions -/

theorem errs_coherence (u v : UnitObj) : Errs [.keyError] (u.checkCoherence v) := by
  unfold UnitObj.checkCoherence
  generalize psorted strLe (dkeys u.dim) = l
  induction l with
  | nil => exact .ok _
  | cons k t ih =>
    unfold UnitObj.cohLoop
    have hd : ∀ d : Dict String Rat, Errs [.keyError] (dgetE d k) := fun d => by
      unfold dgetE
      split
      · exact .ok _
      · exact .err (List.mem_cons_self ..)
    refine .bind (hd _) fun x _ => .bind (hd _) fun y _ => ?_
    split
    · exact ih
    · exact .ok _

theorem errs_unitSub (u v : UnitObj) : Errs [.dimensionalCoherence, .keyError] (u.sub v) := by
  unfold UnitObj.sub
  refine .bind ((errs_coherence u v).mono (by simp)) fun b _ => ?_
  split
  · exact .ok _
  · exact .err (by simp)

theorem errs_unitAdd (u v : UnitObj) : Errs [.dimensionalCoherence, .keyError] (u.add v) := errs_unitSub u v

theorem errs_sub (a b : ENode) : Errs [.dimensionalCoherence, .keyError] (a.sub (.node b)) :=
  .bind (errs_unitSub _ _) fun _ _ => .ok _

theorem errs_add (a b : ENode) : Errs [.dimensionalCoherence, .keyError] (a.add (.node b)) :=
  .bind (errs_unitAdd _ _) fun _ _ => .ok _

theorem errs_symDiv (a b : SObj) : Errs [.zeroDivision] (a.div b) := by
  unfold SObj.div
  split
  · exact .err (by simp)
  · exact .ok _

theorem errs_symPow (a b : SObj) : Errs [.zeroDivision] (a.pow b) := by
  unfold SObj.pow
  split
  · exact .err (by simp)
  · exact .ok _

theorem errs_pow (a : ENode) (q : Rat) : Errs [.zeroDivision] (a.pow (.num q)) :=
  .bind (errs_symPow _ _) fun _ _ => .bind (.ok _) fun _ _ => .ok _

theorem errs_op (a : ENode) (op : BOp) (b : ENode) : Errs [.dimensionalCoherence, .keyError, .zeroDivision] (a.op op (.node b)) := by
  cases op with
  | add => exact (errs_add a b).mono (by simp)
  | sub => exact (errs_sub a b).mono (by simp)
  | mul => exact .ok _
  | div => exact .bind ((errs_symDiv _ _).mono (by simp)) fun _ _ => .ok _
  | pow =>
    show Errs _ (a.pow (.node b))
    unfold ENode.pow
    simp only
    split
    · rename_i h
      refine .bind ((errs_symPow _ _).mono (by simp)) fun _ _ => .bind ?_ fun _ _ => .ok _
      unfold UnitObj.pow
      simp only [h, if_true]
      exact .ok _
    · exact .err (by simp)

theorem errs_opN (a : ENode) (op : BOp) (q : Rat) : Errs [.zeroDivision] (a.op op (.num q)) := by
  cases op with
  | add | sub | mul => exact .ok _
  | div => exact .bind (errs_symDiv _ _) fun _ _ => .ok _
  | pow => exact errs_pow a q

theorem errs_rop (a : ENode) (op : BOp) (q : Rat) : Errs [.zeroDivision, .typeError] (a.rop op q) := by
  cases op with
  | add | mul => exact .ok _
  | sub => exact .bind (.ok _) fun _ _ => .ok _
  | div => exact .bind ((errs_pow a (-1)).mono (by simp)) fun _ _ => .ok _
  | pow => exact .err (by simp)

theorem errs_build (x : PyExpr) : Errs Spec.ofExpr x.build := by
  induction x with
  | q r x => exact .ok _
  | bin op a b iha ihb =>
    exact .bind iha fun _ _ => .bind ihb fun _ _ => (errs_op _ _ _).mono (by decide)
  | binN op a n iha => exact .bind iha fun _ _ => (errs_opN _ _ _).mono (by decide)
  | nbin op n a iha => exact .bind iha fun _ _ => (errs_rop _ _ _).mono (by decide)
  | fn f a iha =>
    refine .bind iha fun n _ => ?_
    unfold applyFn wrapper
    simp only
    split
    · exact .ok _
    · exact .err (by decide)
  | mmN k a n iha =>
    refine .bind iha fun n _ => ?_
    simp only [minMax, List.all_cons, List.all_nil, MArg.isNum, MArg.isNode, Bool.not_true, Bool.not_false, Bool.and_true, Bool.and_false, Bool.true_and, List.filterMap,
      MArg.unit?, Bool.false_eq_true, if_false]
    exact .bind (.ok _) fun _ _ => .ok _
  | diff r x ind =>
    simp only [PyExpr.build, Quantity.diff]
    split
    · unfold diffNode
      split
      · exact .ok _
      · simp only
        split
        · exact .err (by decide)
        · exact .ok _
    · exact .err (by decide)

theorem errs_lookup (w : World) (m : MRef) (p : APath) : Errs (Spec.noObject :: Spec.ofAttr) (w.lookup m p) := by
  unfold World.lookup
  split
  · exact .err (by decide)
  · split
    · exact .err (by decide)
    · exact .err (by decide)
    · split
      · exact .err (by decide)
      · exact .ok _

theorem errs_toPy (w : World) (m : MRef) (x : AExpr) : Errs (Spec.noObject :: Spec.ofAttr) (x.toPy w m) := by
  induction x with
  | q p => exact .bind (errs_lookup _ _ _) fun _ _ => .ok _
  | bin op a b iha ihb => exact .bind iha fun _ _ => .bind ihb fun _ _ => .ok _
  | binN op a n iha => exact .bind iha fun _ _ => .ok _
  | nbin op n a iha => exact .bind iha fun _ _ => .ok _
  | fn f a iha => exact .bind iha fun _ _ => .ok _
  | mmN k a n iha => exact .bind iha fun _ _ => .ok _
  | diff x t =>
    cases t with
    | none => exact .bind (errs_lookup _ _ _) fun _ _ => .ok _
    | some t => exact .bind (errs_lookup _ _ _) fun _ _ => .bind (errs_lookup _ _ _) fun _ _ => .ok _

theorem attr_expr : ∀ e ∈ Spec.noObject :: Spec.ofAttr, e ∈ Spec.noObject :: Spec.ofExpr := by decide

theorem errs_stmt (st : Stmt) : Errs Spec.ofExpr st.arg := by
  cases st with
  | eqn l r => exact .bind (errs_build l) fun _ _ => .bind (errs_build r) fun _ _ => .ok _
  | eqnNum l q => exact .bind (errs_build l) fun _ _ => .ok _
  | res x => exact .bind (errs_build x) fun _ _ => .ok _

/-- What is written evaluates to a node, or to a tuple of a node and a node or number. -/
theorem Stmt.arg_forms {st : Stmt} {a : ResArg} (h : st.arg = .ok a) : (∃ n, a = .node n) ∨ (∃ l r, a = .eqn l r) ∨ ∃ l q, a = .eqnNum l q := by
  cases st with
  | eqn l r =>
    simp only [Stmt.arg, bind_eq_ok, Except.ok.injEq] at h
    obtain ⟨x, _, y, _, rfl⟩ := h
    exact .inr (.inl ⟨_, _, rfl⟩)
  | eqnNum l q =>
    simp only [Stmt.arg, bind_eq_ok, Except.ok.injEq] at h
    obtain ⟨x, _, rfl⟩ := h
    exact .inr (.inr ⟨_, _, rfl⟩)
  | res x =>
    simp only [Stmt.arg, bind_eq_ok, Except.ok.injEq] at h
    obtain ⟨x, _, rfl⟩ := h
    exact .inl ⟨_, rfl⟩

theorem raises_eval (m : MRef) (st : AStmt) : Raises Spec.ofExpr (st.eval m) := fun w e h => by
  have h1 : Errs (Spec.noObject :: Spec.ofExpr) (st.toStmt w m >>= Stmt.arg) := by
    refine .bind ?_ fun s _ => (errs_stmt s).mono fun _ => List.mem_cons_of_mem _
    cases st with
    | eqn l r => exact .bind ((errs_toPy w m l).mono attr_expr) fun _ _ => .bind ((errs_toPy w m r).mono attr_expr) fun _ _ => .ok _
    | eqnNum l q => exact .bind ((errs_toPy w m l).mono attr_expr) fun _ _ => .ok _
    | res x => exact .bind ((errs_toPy w m x).mono attr_expr) fun _ _ => .ok _
  exact List.mem_cons.mp (h1 e h)

/-! ## Equations -/

theorem sub_same_unit (l : ENode) (t : String) (q : Rat) : ∃ d, l.sub (.node (EqObj.numNode t q l.unit)) = .ok d := by
  have h : ∀ (d : Dict String Rat) (ks : List String), (∀ k ∈ ks, k ∈ dkeys d) → UnitObj.cohLoop d d ks = .ok true := by
    intro d ks
    induction ks with
    | nil => intro _; rfl
    | cons k t ih =>
      intro hk
      obtain ⟨v, hv⟩ := exists_dget_of_mem (hk k (List.mem_cons_self ..))
      unfold UnitObj.cohLoop
      have hd : dgetE d k = .ok v := by simp [dgetE, hv]
      rw [hd]
      show (if v = v then UnitObj.cohLoop d d t else .ok false) = _
      rw [if_pos rfl]
      exact ih fun k hk' => hk k (List.mem_cons_of_mem _ hk')
  have h2 : UnitObj.sub l.unit l.unit = .ok l.unit := by
    unfold UnitObj.sub UnitObj.checkCoherence
    rw [h _ _ fun k hk => (mem_psorted ..).mp hk]
    rfl
  exact ⟨_, by simp only [ENode.sub, EqObj.numNode, h2]; rfl⟩

theorem errs_setResidual' (t : String) (e : EqObj) (a : ResArg) (ha : ∀ l, a ≠ .eqnOther l) : Errs (Spec.ofRes (some a) false) (e.setResidual t a).1 := by
  cases a with
  | eqn l r =>
    simp only [EqObj.setResidual]
    split
    · rename_i x h
      exact fun e he => by cases he; have := (errs_sub l r) _ h; simpa [Spec.ofRes] using this
    · exact .ok _
  | eqnNum l q =>
    obtain ⟨d, hd⟩ := sub_same_unit l t q
    simp only [EqObj.setResidual, hd, EqObj.finish]
    exact .ok _
  | eqnOther l => exact absurd rfl (ha l)
  | node n => exact .ok _
  | other => exact .err (by simp [Spec.ofRes])

theorem errs_setResidual (t : String) (e : EqObj) (he : e.expr = none) (a : ResArg) : Errs (Spec.ofRes (some a) false) (e.setResidual t a).1 := by
  cases a with
  | eqnOther l =>
    simp only [EqObj.setResidual, EqObj.finish, he]
    exact .err (by simp [Spec.ofRes])
  | _ => exact errs_setResidual' t e _ (by simp)

theorem setResidual_expr {t : String} {e : EqObj} {a : ResArg} {u : Unit} {e' : EqObj} (h : e.setResidual t a = (.ok u, e')) : ∃ n, e'.expr = some n :=
  let ⟨n, hn, _⟩ := EqObj.setResidual_ok (e := e) (tag := t) (a := a) (by rw [h])
  ⟨n, by rw [h] at hn; exact hn⟩

theorem raises_createEquation (m : MRef) (n d : String) (a : Option ResArg) (c : Bool) : Raises (Spec.ofRes a c) (createEquation m n d a c) := by
  unfold createEquation
  refine .bind (.getM _) fun mo => .bind (.tagIf _) fun t => .bind (.tagIf _) fun t' => .bindL ?_ fun e he => ?_
  · cases a with
    | none => exact .ok _
    | some a =>
      have h := errs_setResidual t' { name := if n = "" then t else n, description := d } rfl a
      unfold EqObj.init
      simp only
      split
      · exact .ok _
      · rename_i x e' hx
        rw [hx] at h
        refine fun e he => ?_
        cases he
        refine (fun k => k (h _ rfl) : (_ → _) → _) ?_
        cases a <;> cases c <;> simp only [Spec.ofRes, Bool.false_eq_true, if_false, if_true, List.append_nil, List.mem_append, List.not_mem_nil, IsEmpty.forall_iff, imp_self]
        exact Or.inl
  · cases a with
    | none =>
      simp only [EqObj.init, Except.ok.injEq] at he
      subst he
      exact .bindL (.err (List.mem_cons_self ..)) fun _ h => by cases h
    | some a =>
      obtain ⟨e0, e1, _, h1, rfl⟩ := EqObj.init_fresh he
      obtain ⟨k, hk⟩ := setResidual_expr h1
      refine .bindL (by unfold EqObj.sweep; simp only [hk]; exact .ok _) fun e' he' => .bind (.when fun hc => .lift ?_) fun _ => .bind (.newE _) fun _ => .bind (.setM _ _) fun _ => .ret _
      obtain ⟨k', _, rfl⟩ := EqObj.sweep_ok he'
      unfold ModelObj.checkEquation
      simp only
      split
      · exact .ok _
      · refine .err ?_
        subst hc
        cases a with
        | eqnOther l => exact absurd rfl (EqObj.init_not_other he l)
        | other => simp [EqObj.setResidual] at h1
        | _ => simp [Spec.ofRes]

theorem raises_setAttr {l : List Err} (m : MRef) (s : String) (v : Attr) : Raises l (setAttr m s v) := .bind (.getM _) fun _ => .setM _ _

theorem raises_createVariable (m : MRef) (a : VarArgs) (s : String) : Raises (Spec.ofCmd (.var s a)) (createVariable m a) := fun w e h => by
  cases hm : w.ms[m]? with
  | none => rw [createVariable_none hm] at h; cases h; exact .inl rfl
  | some mo =>
    rw [createVariable_run hm] at h
    simp only at h
    split at h
    · rename_i hc
      cases h
      refine .inr ?_
      show Err.keyError ∈ if a.exposed = true ∧ a.vtype ≠ "input" ∧ a.vtype ≠ "output" then [Err.keyError] else []
      rw [if_pos hc]
      exact List.mem_cons_self ..
    · cases h

theorem raises_createParameter {l : List Err} (m : MRef) (a : ParArgs) : Raises l (createParameter m a) :=
  .bind (.getM _) fun _ => .bind (.newQ _) fun _ => .bind (.setM _ _) fun _ => .ret _

theorem raises_createConstant {l : List Err} (m : MRef) (a : ParArgs) : Raises l (createConstant m a) :=
  .bind (.getM _) fun _ => .bind (.newQ _) fun _ => .bind (.setM _ _) fun _ => .ret _

theorem errs_setValue (q : Quantity) (v : SVArg) (u : Option UnitObj) : Errs (Spec.ofVal v u) (q.setValue v u) := by
  unfold Quantity.setValue
  cases v with
  | qty p =>
    cases u with
    | none =>
      simp only
      split
      · refine .bind ((errs_coherence _ _).mono (by simp [Spec.ofVal])) fun b _ => ?_
        split
        · exact .ok _
        · exact .err (by simp [Spec.ofVal])
      · exact .err (by simp [Spec.ofVal])
    | some u =>
      simp only
      split
      · refine .bind (.ok _) fun b _ => ?_
        split
        · exact .ok _
        · exact .err (by simp [Spec.ofVal])
      · exact .err (by simp [Spec.ofVal])
  | float x => exact .ok _
  | int x =>
    cases u with
    | none => exact .ok _
    | some u =>
      refine .bind ((errs_coherence _ _).mono (by simp [Spec.ofVal])) fun b _ => ?_
      split
      · exact .ok _
      · exact .err (by simp [Spec.ofVal])
  | other => exact .err (by simp [Spec.ofVal])

theorem raises_setValueM (r : Ref) (v : SVArg) (u : Option UnitObj) : Raises (Spec.ofVal v u) (setValueM r v u) :=
  .bind (.getQ _) fun _ => .bindL (errs_setValue _ v u) fun _ _ => .setQ _ _

theorem raises_lookupM (m : MRef) (p : APath) : Raises Spec.ofAttr (lookupM m p) := fun w e h => List.mem_cons.mp (errs_lookup w m p e h)

theorem raises_cmd (m : MRef) (c : Cmd) : Raises (Spec.ofCmd c) (c.run m) := by
  cases c with
  | var s a => exact .bind (raises_createVariable m a s) fun _ => raises_setAttr _ _ _
  | par s a => exact .bind (raises_createParameter m a) fun _ => raises_setAttr _ _ _
  | con s a => exact .bind (raises_createConstant m a) fun _ => raises_setAttr _ _ _
  | eqn s n d st c =>
    intro w e h
    have h : ((st.eval m >>= fun a => createEquation m n d (some a) c >>= fun r => setAttr m s (.eqn r)) w).1 = .error e := h
    rw [PyM.bind_run] at h
    rcases hr : st.eval m w with ⟨e' | a, w1⟩
    · rw [hr] at h
      cases h
      exact (raises_eval m st w e (by rw [hr])).imp id (List.mem_append_left _)
    · rw [hr] at h
      obtain ⟨x, _, hx⟩ := (bind_eq_ok ..).1 (show (st.toStmt w m >>= Stmt.arg) = .ok a from congrArg Prod.fst hr)
      have hl : ∀ e ∈ Spec.ofRes (some a) c, e ∈ Spec.ofExpr ++ if c then [.unexpectedObjectDeclaration] else [] := by
        obtain ⟨n, rfl⟩ | ⟨l, r, rfl⟩ | ⟨l, q, rfl⟩ := x.arg_forms hx <;> cases c <;> simp [Spec.ofRes, Spec.ofExpr]
      exact (Raises.bind (raises_createEquation m n d (some a) c) fun _ => raises_setAttr _ _ _).mono hl w1 e h
  | setValue p v u =>
    refine .bind ((raises_lookupM m p).mono fun _ => List.mem_append_left _) fun x => .bind ?_ fun v => (raises_setValueM _ v u).mono ?_
    · cases v with
      | qty p => exact .bind ((raises_lookupM m p).mono fun _ => List.mem_append_left _) fun _ => .ret _
      | _ => exact .ret _
    · cases v <;> cases u <;> simp [Spec.ofVal, Spec.ofCmd]
  | distribute p => exact .bind (raises_lookupM m p) fun _ => .bind (.getQ _) fun _ => .setQ _ _
  | fail e => exact .raise (List.mem_cons_self ..)

theorem raises_cmds (m : MRef) (l : List Cmd) : Raises (l.flatMap Spec.ofCmd) (each l (Cmd.run m)) :=
  .each _ fun c hc => (raises_cmd m c).mono fun _ he => List.mem_flatMap.mpr ⟨c, hc, he⟩

/-! ## Incorporation and connections -/

theorem errs_mapOf (d : Dict String Ref) (l : List String) : Errs [.keyError] (EqObj.mapOf d l) := by
  refine .bind (.mapM fun k _ => .bind ?_ fun _ _ => .ok _) fun _ _ => .ok _
  unfold dgetE
  split
  · exact .ok _
  · exact .err (List.mem_cons_self ..)

theorem errs_convert (e : EqObj) (names : Dict String String) (whole : Dict String Ref) : Errs [.keyError, .attributeError] (e.convert names whole) := by
  have hm : ∀ l, Errs [.keyError, .attributeError] (EqObj.mapOf whole l) := fun l => (errs_mapOf whole l).mono (by simp)
  unfold EqObj.convert
  split
  · unfold EqObj.convertNode
    refine .bind ?_ fun _ _ => .bind ?_ fun _ _ => .bind (hm _) fun _ _ => .ok _
    · unfold EqObj.subsObj
      split
      · exact .err (by simp)
      · exact .ok _
    · unfold EqObj.convertElem
      split
      · exact .ok _
      · split
        · exact .err (by simp)
        · exact .bind (hm _) fun _ _ => .bind (hm _) fun _ _ => .ok _
  · exact .err (by simp)

theorem raises_incorporate (m s : MRef) (fl : IncFlags) : Raises (Spec.ofInc fl) (incorporate m s fl) := by
  have h : ∀ {l : List Err} (v : ModelObj → Quantity → Ref → ModelObj) (r : Ref), Raises l (do
      let mo ← PyM.getM m
      let q ← PyM.getQ r
      let q' := { q with name := newName fl.rewrite q.name q.owner mo.name, owner := mo.name }
      let r' ← newQ q'
      setM m (v mo q' r')
      setAttr m (objectName q.name q.owner) (.qty r')) :=
    fun v r => .bind (.getM _) fun _ => .bind (.getQ _) fun _ => .bind (.newQ _) fun _ => .bind (.setM _ _) fun _ => raises_setAttr _ _ _
  refine .bind (.getM _) fun _ => .bind (.when fun hf => .each _ fun r _ => ?_) fun _ => .bind (.getM _) fun _ =>
    .bind (.when fun _ => .each _ fun r _ => h (fun mo q r => { mo with pars := dset mo.pars q.name r }) r) fun _ => .bind (.getM _) fun _ =>
    .bind (.when fun _ => .each _ fun r _ => h (fun mo q r => { mo with cons := dset mo.cons q.name r }) r) fun _ => .bind (.getM _) fun _ =>
    .bind (.getM _) fun _ => .when fun hf => .each _ fun r _ => ?_
  · exact .bind (.getM _) fun _ => .bind (.getQ _) fun _ => .bind (.newQ _) fun _ => .bind (.setM _ _) fun _ =>
      .bind (.when fun _ => .raise (by simp [Spec.ofInc, hf])) fun _ => raises_setAttr _ _ _
  · exact .bind (.getM _) fun _ => .bind (.getE _) fun _ => .bindL ((errs_convert _ _ _).mono (by simp [Spec.ofInc, hf])) fun _ _ =>
      .bind (.newE _) fun _ => .bind (.setM _ _) fun _ => raises_setAttr _ _ _

theorem raises_modelConn (m : MRef) (o i : List Ref) (a : ResArg) : Raises (.unexpectedValue :: Spec.ofRes (some a) false) (createModelConnection m o i a) := by
  refine .bind (.getM _) fun mo => .bind (.collect _ fun _ _ => .getQ _) fun qo => .bind (.collect _ fun _ _ => .getQ _) fun qi =>
    .bind (.when fun _ => .raise (List.mem_cons_self ..)) fun _ => .bind (.tagIf _) fun t => .bindL ?_ fun e he => .bind (.tagIf _) fun t' => ?_
  · unfold EqObj.init
    simp only
    split
    · exact .ok _
    · rename_i x e' hx
      have h : ∀ e0 : EqObj, e0.expr = none → e0.setResidual t a = (.error x, e') → Errs (Spec.ofRes (some a) false) (Except.error x : Except Err Unit) :=
        fun e0 h0 h1 => by
          have := errs_setResidual t e0 h0 a
          rwa [h1] at this
      have h := h _ rfl hx
      exact fun y hy => by cases hy; exact List.mem_cons_of_mem _ (h _ rfl)
  · have h : Errs (Spec.ofRes (some a) false) (e.setResidual t' a).1 := by
      cases a with
      | eqnOther l => exact absurd rfl (EqObj.init_not_other he l)
      | _ => exact errs_setResidual' t' e _ (by simp)
    refine .bindL (h.mono fun _ => List.mem_cons_of_mem _) fun u hu => .bindL ?_ fun _ _ => .bind (.newE _) fun _ => .bind (.setM _ _) fun _ => .ret _
    obtain ⟨n, hn, _⟩ := EqObj.setResidual_ok hu
    unfold EqObj.sweep
    simp only [hn]
    exact .ok _

theorem res_conn (a : ResArg) : ∀ e ∈ Err.unexpectedValue :: Spec.ofRes (some a) false,
    e ∈ [Err.unexpectedValue, .attributeError, .exposedVariable, .dimensionalCoherence, .keyError] := by
  cases a <;> simp only [Spec.ofRes, Bool.false_eq_true, if_false, List.append_nil] <;> decide

theorem raises_connExpr (i o : List Ref) (a : Option ResArg) : Raises [.dimensionalCoherence, .keyError] (connExpr i o a) := by
  have hs : ∀ l, Errs [.dimensionalCoherence, .keyError] (sumNodes l) := fun l => by
    cases l with
    | nil => exact .ok _
    | cons a t => exact .bind (.ok _) fun _ _ => .bind (.foldlM (fun _ _ _ => errs_add _ _) _) fun _ _ => .ok _
  cases a with
  | some a => exact .ret _
  | none =>
    refine .bind (.collect _ fun _ _ => .bind (.getQ _) fun _ => .ret _) fun _ => .bind (.collect _ fun _ _ => .bind (.getQ _) fun _ => .ret _) fun _ =>
      .bind (.lift (hs _)) fun a => .bind (.lift (hs _)) fun b => .lift ?_
    cases a <;> cases b
    · exact .ok _
    · exact .bind (.bind (.ok _) fun _ _ => .ok _) fun _ _ => .ok _
    · exact .bind (.ok _) fun _ _ => .ok _
    · exact .bind (errs_sub _ _) fun _ _ => .ok _

theorem raises_connect (s : ConnSrc) (m : MRef) (o i : ConnArg) (a : Option ResArg) : Raises (Spec.ofConn o i) (createConnection s m o i a) := by
  have hx : ∀ l (x : ConnArg), Errs [Err.unexpectedValue, .attributeError, .exposedVariable, .dimensionalCoherence, .keyError] (x.exposedIn l) := fun l x => by
    cases x with
    | var r | list l => exact .ok _
    | node n =>
      simp only [ConnArg.exposedIn]
      split
      · exact .ok _
      · exact .err (by decide)
  have he : ∀ a b, exposedError a b ∈ [Err.unexpectedValue, .attributeError, .exposedVariable, .dimensionalCoherence, .keyError] := fun a b => by
    cases a <;> cases b <;> simp [exposedError]
  have hv : Raises [Err.unexpectedValue, .attributeError, .exposedVariable, .dimensionalCoherence, .keyError] (connectVars s m o i a) := by
    have hc := (raises_connExpr i.refs o.refs a).mono (l' := [Err.unexpectedValue, .attributeError, .exposedVariable, .dimensionalCoherence, .keyError]) (by decide)
    unfold connectVars
    split
    · refine .bind (.getM _) fun _ => .bind (.lift (hx _ _)) fun _ => .bind (.getM _) fun _ => .bind (.lift (hx _ _)) fun _ => .bind (.when fun _ => .raise (he _ _)) fun _ =>
        .bind hc fun x => .bind (.collect _ fun _ _ => .getQ _) fun _ => .bind (.collect _ fun _ _ => .getQ _) fun _ => .bind ((raises_modelConn _ _ _ x).mono (res_conn x)) fun _ =>
        .bind (.getM _) fun _ => .bind (.getM _) fun _ => .bind .getPr fun _ => .setPr _
    · exact .bind (.getM _) fun _ => .bind (.lift (hx _ _)) fun _ => .bind (.when fun _ => .raise (by decide)) fun _ =>
        .bind hc fun x => .bind ((raises_modelConn _ _ _ x).mono (res_conn x)) fun _ => .raise (by decide)
  unfold createConnection
  split
  · refine .bind ?_ fun _ => .bind (.getM _) fun _ => .bindL ((errs_sub _ _).mono (by simp [Spec.ofConn])) fun _ _ => .bind ((raises_createEquation _ _ _ _ _).mono (by simp [Spec.ofRes])) fun _ => .ret _
    unfold ConnSrc.text
    split
    · exact .bind (.ptagIf _) fun _ => .ret _
    · exact .bind (.getM _) fun _ => .ret _
    · exact .raise (by simp [Spec.ofConn])
  · rename_i h
    refine hv.mono ?_
    unfold Spec.ofConn
    split
    · exact absurd rfl (h _ _ rfl)
    · exact fun _ => id

/-! ## Totalization, calls of models -/

theorem raises_totalize (m : MRef) : Raises Spec.ofTot (totalizeInlets m) := by
  have hi : ∀ a d u l, Raises Spec.ofTot (ensureInlet m a d u l) := fun a d u l =>
    .bind (.getM _) fun _ => .when fun _ => (raises_cmd m _).mono (by simp [Spec.ofCmd])
  have hl : ∀ s a, Raises Spec.ofTot (lookupM s a) := fun s a => (raises_lookupM s a).mono fun _ => List.mem_append_left _
  have hn : ∀ a l, Raises Spec.ofTot (inletNodes a l) := fun a l => .collect _ fun _ _ => .bind (hl _ _) fun _ => .ret _
  have hf : ∀ a l, Raises Spec.ofTot (fixInlets m a l) := fun a l => .each _ fun _ _ => .bind (hl _ _) fun _ => .bindL (.ok _) fun _ _ =>
    .bind ((raises_createEquation _ _ _ _ _).mono (by simp [Spec.ofRes, Spec.ofTot])) fun _ => .ret _
  have hm : ∀ a ns s, Raises Spec.ofTot (totalizeMin m a ns s) := fun a ns s => .bind (hl _ _) fun _ => .bindL (by
      cases ns with
      | nil => exact .err (by decide)
      | cons a t =>
        have : (MArg.node a :: t.map MArg.node).all MArg.isNode = true := by rw [List.all_eq_true]; simp [MArg.isNode, MArg.isNum]
        simp only [minNodes, minMax, this, if_true]
        have hn : (MArg.node a :: t.map MArg.node).all MArg.isNum = false := rfl
        simp only [hn, Bool.false_eq_true, if_false]
        exact .err (by decide)) fun k hk => by
    obtain ⟨x, hx⟩ := minNodes_error ns
    rw [hx] at hk; cases hk
  exact .bind (hi _ _ _ _) fun _ => .bind (hi _ _ _ _) fun _ => .bind (hi _ _ _ _) fun _ => .bind (hi _ _ _ _) fun _ => .bind (hi _ _ _ _) fun _ =>
    .bind (.getM _) fun _ => .bind (.each _ fun _ _ => (raises_incorporate _ _ _).mono (by decide)) fun _ => .bind (.getM _) fun _ => .bind (.getP _) fun _ =>
    .when fun _ => .bind (hn _ _) fun _ => .bind (hf _ _) fun _ => .bind (.rethrow (by decide)) fun _ => .bind (.rethrow (by decide)) fun _ =>
    .bind (hm _ _ _) fun _ => hm _ _ _

/-- Nothing that matters for later calls is changed. -/
def Onward (w w' : World) : Prop := w.Le w' ∧ SameInlets w w'

theorem onward_preRel : PreRel Onward :=
  ⟨fun w => ⟨World.Le.refl w, sameInlets_elem.refl w⟩, fun a b c h h' => ⟨h.1.trans h'.1, sameInlets_elem.trans a b c h.2 h'.2⟩⟩

theorem each_err {α : Type} {R : World → World → Prop} (S : PreRel R) {f : α → PyM Unit} (hf : ∀ a, Pres R (f a)) {e : Err} :
    ∀ (l : List α) (w : World), (each l f w).1 = .error e → ∃ a ∈ l, ∃ w', R w w' ∧ (f a w').1 = .error e
  | [], w, h => by cases h
  | a :: t, w, h => by
    have h : ((f a >>= fun _ => each t f) w).1 = .error e := h
    rw [PyM.bind_run] at h
    have h1 := hf a w
    rcases hr : f a w with ⟨e' | u, w1⟩
    · rw [hr] at h
      cases h
      exact ⟨a, List.mem_cons_self .., w, S.refl w, by rw [hr]⟩
    · rw [hr] at h h1
      obtain ⟨b, hb, w2, h2, h3⟩ := each_err S hf t w1 h
      exact ⟨b, List.mem_cons_of_mem _ hb, w2, S.trans _ _ _ h1 h2, h3⟩

theorem call_err {w : World} {m : MRef} {e : Err} (h : (Model.call m w).1 = .error e) :
    e = Spec.noObject ∨ ∃ mo, w.ms[m]? = some mo ∧ e ∈ Spec.ofModel mo := by
  cases hm : w.ms[m]? with
  | none =>
    unfold Model.call at h
    rw [PyM.bind_of_error (getM_none hm)] at h
    cases h
    exact .inl rfl
  | some mo =>
    have hb : ∀ l, (∀ c ∈ l, c ∈ mo.body.cons ++ mo.body.pars ++ mo.body.vars ++ mo.body.eqns) → Raises (Spec.ofModel mo) (each l (Cmd.run m)) := fun l hl =>
      (raises_cmds m l).mono fun x hx => by
        obtain ⟨c, hc, hx⟩ := List.mem_flatMap.mp hx
        exact List.mem_append_left _ (List.mem_flatMap.mpr ⟨c, hl c hc, hx⟩)
    have hk : ∀ l, Pres Onward (each l (Cmd.run m)) := fun l w => ⟨le_stable.cmds m l w, (sameInlets_elem.stable trivial).cmds m l w⟩
    suffices H : e = Spec.noObject ∨ e ∈ Spec.ofModel mo from H.imp id fun h => ⟨mo, rfl, h⟩
    unfold Model.call at h
    rw [PyM.bind_of_ok (getM_of hm)] at h
    rw [PyM.bind_run] at h
    have k1 := hk mo.body.cons w
    rcases h1 : each mo.body.cons (Cmd.run m) w with ⟨e' | u, w1⟩
    · rw [h1] at h; cases h
      exact hb mo.body.cons (fun c hc => by simp [hc]) w e (by rw [h1])
    rw [h1] at h k1
    simp only at h k1
    rw [PyM.bind_run] at h
    have k2 := hk mo.body.pars w1
    rcases h2 : each mo.body.pars (Cmd.run m) w1 with ⟨e' | u, w2⟩
    · rw [h2] at h; cases h
      exact hb mo.body.pars (fun c hc => by simp [hc]) w1 e (by rw [h2])
    rw [h2] at h k2
    simp only at h k2
    rw [PyM.bind_run] at h
    have k3 := hk mo.body.vars w2
    rcases h3 : each mo.body.vars (Cmd.run m) w2 with ⟨e' | u, w3⟩
    · rw [h3] at h; cases h
      exact hb mo.body.vars (fun c hc => by simp [hc]) w2 e (by rw [h3])
    rw [h3] at h k3
    simp only at h k3
    have k := onward_preRel.trans _ _ _ (onward_preRel.trans _ _ _ k1 k2) k3
    obtain ⟨mo', hm', hi⟩ := k.2 m mo hm
    obtain ⟨mo'', hm'', hle⟩ := k.1.ms m mo hm
    rw [hm'] at hm''
    cases hm''
    rw [PyM.bind_of_ok (getM_of hm')] at h
    refine Raises.bind (.when fun hn => (raises_totalize m).mono fun x hx => ?_) (fun _ => ?_) w3 e h
    · refine List.mem_append_right _ ?_
      rw [hi] at hn
      rw [if_neg (by simpa using hn)]
      exact hx
    · exact hb _ fun c hc => by simp [hle.body ▸ hc]

/-! ## Blocks -/

/-- The two sides of an equation in elementary form are there. -/
def EqObj.Sided (e : EqObj) : Prop := e.form = .elementary → e.elem ≠ none

theorem sided_elem : Elem {} (fun w w' => (∀ e ∈ w.es, e.Sided) → ∀ e ∈ w'.es, e.Sided) := by
  refine eqInv_elem' {} EqObj.Sided (fun _ _ _ => trivial) ?_ ?_
  · intro t e0 e a n o d _ hno hf h
    cases a with
    | eqn l r =>
      simp only [EqObj.setResidual] at h
      split at h
      · cases h
      · obtain ⟨m, _, rfl⟩ := EqObj.finish_ok h
        exact fun _ => by simp
    | eqnNum l q =>
      simp only [EqObj.setResidual] at h
      split at h
      · cases h
      · obtain ⟨m, _, rfl⟩ := EqObj.finish_ok h
        exact fun _ => by simp
    | eqnOther l => exact absurd rfl (hno l)
    | node k =>
      intro hx
      have h1 := EqObj.setResidual_node_form h
      rcases hf with hf | hf
      · rw [hf] at h1
        exact absurd (h1.symm.trans hx) (by decide)
      · exact absurd rfl (hf k)
    | other => simp [EqObj.setResidual] at h
  · intro fl _ _ e e' n o names whole he h
    unfold EqObj.convert at h
    split at h
    · simp only [EqObj.convertNode, bind_eq_ok] at h
      obtain ⟨s, _, el, hel, mp, _, hsw⟩ := h
      obtain ⟨k, _, rfl⟩ := EqObj.sweep_ok hsw
      intro hx
      have := he hx
      simp only
      rintro rfl
      unfold EqObj.convertElem at hel
      split at hel
      · rename_i h0
        exact this h0
      · split at hel
        · cases hel
        · simp only [bind_eq_ok, Except.ok.injEq] at hel
          obtain ⟨_, _, _, _, h⟩ := hel
          cases h
    · cases h

/-- Every stored equation has an expression, its sides if it is elementary, and the table of its objects. -/
def World.Whole (w : World) : Prop := w.WF ∧ ∀ e ∈ w.es, e.Sided

theorem build_err {w : World} (hw : w.Whole) {e : Err} (h : (buildEquationBlock w).1 = .error e) : e = Spec.noObject := by
  have ho : ∀ (qs : List Quantity) (l : List Ref) (g : Gather), Errs [Spec.noObject] (l.foldlM (Gather.obj qs) g) := fun qs l g => .foldlM (fun g r _ => by
    unfold Gather.obj
    split
    · exact .err (by decide)
    · split_ifs <;> exact .ok _) g
  have hg : Errs [Spec.noObject] ((dvalues w.pr.models).foldlM (Gather.model w) {}) := .foldlM (fun g m _ => by
    unfold Gather.model
    split
    · exact .err (by decide)
    · refine .foldlM (fun g r _ => ?_) g
      unfold Gather.eqn
      split
      · exact .err (by decide)
      · rename_i e he
        obtain ⟨n, _, hn, _⟩ := hw.1.es r e he
        simp only [hn]
        exact ho _ _ _) _
  unfold buildEquationBlock at h
  split at h
  · rename_i x hx
    cases h
    exact List.mem_singleton.mp (hg _ hx)
  · cases h

theorem callBlock_err {w : World} (hw : w.Whole) {b : Block} (hb : w.pr.block = some b) {e : Err} (h : (callBlock w).1 = .error e) : e = Spec.noObject := by
  have hl : ∀ l : List ERef, Errs [Spec.noObject] (Block.getEquationList w.es none .rhs l) := fun l => by
    induction l with
    | nil => exact .ok _
    | cons r t ih =>
      unfold Block.getEquationList
      simp only
      split
      · rename_i x hx
        refine .bind ?_ fun _ _ => .bind ih fun _ _ => .ok _
        refine .bind ?_ fun _ _ => .ok _
        unfold EqObj.getNode
        obtain ⟨n, hn, _⟩ := hw.1.es r x hx
        have hs := hw.2 x (List.mem_of_getElem? hx)
        simp only [Option.getD_none]
        split
        · simp only [hn]; exact .ok _
        · rename_i hf
          split
          · exact .ok _
          · rename_i h0; exact absurd h0 (hs hf)
      · exact .err (by decide)
  unfold callBlock at h
  simp only [hb] at h
  split at h
  · rename_i x hx
    cases h
    have : Errs [Spec.noObject] (b.call w.es) := .bind (hl _) fun _ _ => .ok _
    exact List.mem_singleton.mp (this _ hx)
  · cases h

theorem resolve_err {w : World} (hw : w.Whole) (hp : w.pr.WF w) {e : Err} (h : (resolve w).1 = .error e) :
    e = Spec.noObject ∨ ∃ m ∈ dvalues w.pr.models, ∃ mo, w.ms[m]? = some mo ∧ e ∈ Spec.ofModel mo := by
  unfold resolve at h
  rw [PyM.bind_run] at h
  rcases h1 : reloadModels w with ⟨e' | u, w1⟩
  · rw [h1] at h
    cases h
    have he : (each (dvalues w.pr.models) Model.call w).1 = .error e := congrArg Prod.fst h1
    obtain ⟨m, hm, w', hk, he⟩ := each_err onward_preRel (fun m w => ⟨le_stable.call m w, (sameInlets_elem.stable trivial).call m w⟩) _ _ he
    refine (call_err he).imp id fun ⟨mo', hmo', hin⟩ => ⟨m, hm, ?_⟩
    obtain ⟨x, hx, rfl⟩ := List.mem_map.mp hm
    obtain ⟨mo, hmo, _⟩ := hp.models.2 x hx
    refine ⟨mo, hmo, ?_⟩
    obtain ⟨m1, hm1, hi⟩ := hk.2 _ mo hmo
    obtain ⟨m2, hm2, hle⟩ := hk.1.ms _ mo hmo
    rw [hmo'] at hm1 hm2
    cases hm1
    cases hm2
    unfold Spec.ofModel at hin ⊢
    rwa [hi, hle.body] at hin
  · rw [h1] at h
    have hw1 : w1.Whole := by
      have hr : ∀ {R : World → World → Prop}, Stable {} R → R w (reloadModels w).2 := fun S => S.bind S.getPr (fun _ => S.each _ fun _ => S.call _) w
      have a := hr (wf_elem.stable trivial) hw.1
      have b := hr (sided_elem.stable trivial) hw.2
      rw [h1] at a b
      exact ⟨a, b⟩
    simp only at h
    rw [PyM.bind_run] at h
    rcases h2 : buildEquationBlock w1 with ⟨e' | u, w2⟩
    · rw [h2] at h
      cases h
      exact .inl (build_err hw1 (by rw [h2]))
    · rw [h2] at h
      have a := (wf_elem.stable trivial).buildEquationBlock trivial w1 hw1.1
      have b := (sided_elem.stable trivial).buildEquationBlock trivial w1 hw1.2
      rw [h2] at a b
      unfold buildEquationBlock at h2
      split at h2
      · cases h2
      · cases h2
        exact .inl (callBlock_err ⟨a, b⟩ rfl h)

mutual
theorem raises_addModels : (t : MTree) → Raises [] (addModels t)
  | .leaf m => by rw [addModels]; exact .bind (.getM _) fun _ => .bind .getPr fun _ => .setPr _
  | .list l => by rw [addModels]; exact raises_addModelsList l
theorem raises_addModelsList : (l : List MTree) → Raises [] (addModelsList l)
  | [] => by rw [addModelsList]; exact .ret ()
  | t :: ts => by rw [addModelsList]; exact .bind (raises_addModels t) fun _ => raises_addModelsList ts
end

/-! ## The theorem -/

theorem reachable_whole {w : World} (h : Reachable w) : w.Whole := by
  refine ⟨reachable_wf h, ?_⟩
  obtain ⟨ops, rfl⟩ := h
  exact Stable.history (sided_elem.stable trivial) ops (fun o _ => by cases o <;> simp [Op.Allowed]) World.init (by simp [World.init])

theorem whole_raises_only {w : World} (hw : w.Whole) (hp : w.pr.WF w) (o : Op) {e : Err} (h : (o.run w).1 = .error e) : e = Spec.noObject ∨ Spec.MayRaise w e o := by
  cases o with
  | newPorts => cases h
  | newModel n d b p =>
    have : Raises [] (newModel n d b p).void := .void (.bind (.getP _) fun _ => .newM _)
    exact (this w e h).imp id fun h => by cases h
  | var m a => exact (raises_createVariable m a "").void w e h
  | par m a => exact ((raises_createParameter (l := []) m a).void w e h).imp id fun h => by cases h
  | con m a => exact ((raises_createConstant (l := []) m a).void w e h).imp id fun h => by cases h
  | eqn m n d a c => exact (raises_createEquation m n d a c).void w e h
  | cmd m c => exact raises_cmd m c w e h
  | setValue r v u => exact raises_setValueM r v u w e h
  | incorporate m s fl => exact raises_incorporate m s fl w e h
  | setInlets m l n =>
    have : Raises [] (setInlets m l n) := .bind (.getM _) fun _ => .bind (.getP _) fun _ => .bind (.setP _ _) fun _ => .setM _ _
    exact (this w e h).imp id fun h => by cases h
  | modelConn m o i a => exact ((raises_modelConn m o i a).void w e h).imp id List.mem_cons.mp
  | call m => exact call_err h
  | connect s m o i a => exact raises_connect s m o i a w e h
  | addModels t =>
    exact (raises_addModels t w e h).imp id fun h => by cases h
  | initial c => cases h
  | time n => cases h
  | resolve => exact resolve_err hw hp h

/-- C98: a call ends only with the exceptions listed for it. -/
theorem raises_only {w : World} (hw : Reachable w) (o : Op) {e : Err} (h : (o.run w).1 = .error e) : e = Spec.noObject ∨ Spec.MayRaise w e o :=
  whole_raises_only (reachable_whole hw) (reachable_problem hw) o h

/-! ## The lists are not longer than necessary -/

namespace Ex
/-- Two models; the first has quantities of several units and an equation. -/
def loaded : List Op := [.newModel "a" "" {} none, .newModel "b" "" {} none, .cmd 0 (dv "x"), .cmd 0 (dv "z"), .cmd 0 (.distribute { attr := "z" }),
  .cmd 0 (.var "p" { name := "p", units := Tmpl.Pa }), .cmd 0 (.var "k" { name := "k", units := { Tmpl.dimless with dim := [] } }),
  .cmd 0 (.con "c" { name := "c", units := Tmpl.dimless, value := 0 }), .cmd 0 (.setValue { attr := "c" } (.int 0) none),
  .cmd 0 (.var "o" { name := "o", units := Tmpl.dimless, exposed := true, vtype := "output" }), .cmd 0 (eq_ "e" (.res (at_ "x"))),
  .cmd 1 (.var "i" { name := "i", units := Tmpl.dimless, exposed := true, vtype := "input" }),
  .cmd 1 (.var "j" { name := "j", units := Tmpl.Pa, exposed := true, vtype := "input" }),
  .cmd 0 (.var "l" { name := "l", units := { Tmpl.dimless with dim := [] }, exposed := true, vtype := "output" }),
  .cmd 0 (.eqn "f" "f" "" (.eqnNum (at_ "x") 1) true)]

/-- The node of a quantity, as `x()` gives it. -/
def nodeOf (r : Ref) : ENode := match (history loaded World.init).qs[r]? with
  | some q => q.call r
  | none => EqObj.numNode "" 0 Tmpl.dimless

/-- The exception the call ends with. -/
def ends (before : List Op) (o : Op) : Option Err := match (o.run (history before World.init)).1 with
  | .ok _ => none
  | .error e => some e

/-- An equation of the first model. -/
def saying (x : AExpr) : Op := .cmd 0 (eq_ "g" (.res x))
end Ex

example : Ex.ends Ex.loaded (Ex.saying (Ex.at_ "y")) = some .attributeError := by decide +kernel
example : Ex.ends Ex.loaded (Ex.saying (Ex.at_ "e")) = some .typeError := by decide +kernel
example : Ex.ends Ex.loaded (Ex.saying (.bin .add (Ex.at_ "x") (Ex.at_ "p"))) = some .dimensionalCoherence := by decide +kernel
example : Ex.ends Ex.loaded (Ex.saying (.bin .add (Ex.at_ "x") (Ex.at_ "k"))) = some .keyError := by decide +kernel
example : Ex.ends Ex.loaded (Ex.saying (.binN .div (Ex.at_ "c") 0)) = some .zeroDivision := by decide +kernel
example : Ex.ends Ex.loaded (Ex.saying (.diff { attr := "z" } (some { attr := "c" }))) = some .valueError := by decide +kernel
example : Ex.ends Ex.loaded (Ex.saying (.diff { attr := "x" } none)) = some .absentRequiredObject := by decide +kernel
example : Ex.ends Ex.loaded (.cmd 1 (Ex.eq_ "g" (.res (.q { model := some 0, attr := "x" })))) = some .unexpectedObjectDeclaration := by decide +kernel
example : Ex.ends Ex.loaded (Ex.saying (.nbin .pow 2 (Ex.at_ "x"))) = some .typeError := by decide +kernel
example : Ex.ends Ex.loaded (.var 0 { name := "q", units := Tmpl.m, exposed := true, vtype := "in" }) = some .keyError := by decide +kernel
example : Ex.ends Ex.loaded (.eqn 0 "g" "" none true) = some .attributeError := by decide +kernel
example : Ex.ends Ex.loaded (.eqn 0 "g" "" (some .other) true) = some .unexpectedValue := by decide +kernel
example : Ex.ends Ex.loaded (.eqn 0 "g" "" (some (.eqnOther (Ex.nodeOf 0))) true) = some .attributeError := by decide +kernel
example : Ex.ends Ex.loaded (.eqn 0 "g" "" (some (.eqn (Ex.nodeOf 0) (Ex.nodeOf 2))) true) = some .dimensionalCoherence := by decide +kernel
example : Ex.ends Ex.loaded (.eqn 0 "g" "" (some (.eqn (Ex.nodeOf 0) (Ex.nodeOf 3))) true) = some .keyError := by decide +kernel
example : Ex.ends Ex.loaded (.eqn 1 "g" "" (some (.eqnNum (Ex.nodeOf 0) 2)) true) = some .unexpectedObjectDeclaration := by decide +kernel
example : Ex.ends Ex.loaded (.eqn 1 "g" "" (some (.eqnNum (Ex.nodeOf 0) 2)) false) = none := by decide +kernel
example : Ex.ends Ex.loaded (.cmd 0 (.setValue { attr := "x" } (.qty { attr := "p" }) none)) = some .dimensionalCoherence := by decide +kernel
example : Ex.ends Ex.loaded (.cmd 0 (.setValue { attr := "x" } (.qty { attr := "z" }) (some Tmpl.dimless))) = some .dimensionalCoherence := by decide +kernel
example : Ex.ends Ex.loaded (.cmd 0 (.setValue { attr := "k" } (.qty { attr := "x" }) none)) = some .keyError := by decide +kernel
example : Ex.ends Ex.loaded (.cmd 0 (.setValue { attr := "x" } (.qty { attr := "c" }) none)) = some .unexpectedValue := by decide +kernel
example : Ex.ends Ex.loaded (.setValue 0 (.int 1) (some Tmpl.m)) = some .unexpectedValue := by decide +kernel
example : Ex.ends Ex.loaded (.setValue 3 (.int 1) (some Tmpl.m)) = some .keyError := by decide +kernel
example : Ex.ends Ex.loaded (.setValue 0 .other none) = some .unexpectedValue := by decide +kernel
example : Ex.ends Ex.loaded (.incorporate 1 0 {}) = some .keyError := by decide +kernel
example : Ex.ends Ex.loaded (.incorporate 1 0 { vars := false }) = some .keyError := by decide +kernel
example : Ex.ends (Ex.loaded ++ [.newModel "d" "" {} none, .cmd 2 (Ex.dv "x"), .cmd 2 (.eqn "f" "f" "" (.eqnNum (Ex.at_ "x") 1) true)]) (.incorporate 1 2 {}) =
    some .attributeError := by decide +kernel
example : Ex.ends Ex.loaded (.modelConn 1 [4] [6] (.node (Ex.nodeOf 0))) = some .unexpectedValue := by decide +kernel
example : Ex.ends Ex.loaded (.connect (.model 0) 1 (.var 5) (.var 7) none) = some .dimensionalCoherence := by decide +kernel
example : Ex.ends Ex.loaded (.connect (.model 0) 1 (.var 8) (.var 6) none) = some .keyError := by decide +kernel
example : Ex.ends Ex.loaded (.connect (.model 0) 1 (.var 0) (.var 6) none) = some .exposedVariable := by decide +kernel
example : Ex.ends Ex.loaded (.connect (.model 0) 1 (.list [0]) (.var 6) none) = some .attributeError := by decide +kernel
example : Ex.ends Ex.loaded (.connect (.model 0) 1 (.list []) (.list []) none) = some .unexpectedValue := by decide +kernel
example : Ex.ends Ex.loaded (.connect .other 1 (.node (Ex.nodeOf 0)) (.node (Ex.nodeOf 0)) none) = some .absentRequiredObject := by decide +kernel
example : Ex.ends Ex.loaded (.connect (.str "s") 1 (.node (Ex.nodeOf 0)) (.node (Ex.nodeOf 2)) none) = some .dimensionalCoherence := by decide +kernel
example : Ex.ends Ex.loaded (.connect (.str "s") 1 (.node (Ex.nodeOf 3)) (.node (Ex.nodeOf 0)) none) = some .keyError := by decide +kernel
example : Ex.ends Ex.loaded (.call 5) = some Spec.noObject := by decide +kernel

namespace Ex
/-- A stream with pressure and temperature of these units. -/
def flow (l : List Cmd) : List Op := [.newModel "s" "" {} none] ++ l.map (.cmd 0) ++ [.newModel "u" "" {} none, .setInlets 1 [0] "in"]
def presT : List Cmd := [.var "P" { name := "P", units := Tmpl.Pa }, .var "T" { name := "T", units := Tmpl.K }]
end Ex

example : Ex.ends (Ex.flow Ex.presT) (.call 1) = some .unexpectedValue := by decide +kernel
example : Ex.ends (Ex.flow (Ex.presT.take 1)) (.call 1) = some .absentRequiredObject := by decide +kernel
example : Ex.ends (Ex.flow []) (.call 1) = some .attributeError := by decide +kernel
example : Ex.ends (Ex.flow [Ex.eq_ "P" (.eqnNum (.q { model := some 0, attr := "P" }) 1)]) (.call 1) = some .attributeError := by decide +kernel
example : Ex.ends (Ex.flow [Ex.dv "x", Ex.eq_ "P" (.res (Ex.at_ "x"))]) (.call 1) = some .typeError := by decide +kernel
example : Ex.ends (Ex.flow [.var "P" { name := "P", units := Tmpl.Pa, exposed := true, vtype := "output" }]) (.call 1) = some .keyError := by decide +kernel
example : Ex.ends (Ex.flow Ex.presT ++ [.addModels (.leaf 1)]) .resolve = some .unexpectedValue := by decide +kernel

end Sloth
