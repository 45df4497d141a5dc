import Verif.Model.Simulation
import Verif.Lemmas.Py

/-!
# Reasoning about solver and simulation calls
-/

namespace Sloth
namespace PyS
variable {K α β τ : Type}

theorem bind_eq (x : PyS K α) (f : α → PyS K β) : (x >>= f) = PyS.bind x f := rfl

theorem pure_eq (a : α) : (Pure.pure a : PyS K α) = PyS.pure a := rfl

theorem bind_ok {x : PyS K α} {f : α → PyS K β} {s s' : SimWorld K} {b : β} :
    (x >>= f) s = (.ok b, s') ↔ ∃ a s1, x s = (.ok a, s1) ∧ f a s1 = (.ok b, s') := by
  rw [bind_eq, PyS.bind]
  cases h : x s with
  | mk r s1 =>
    cases r with
    | ok a => simp
    | error e => simp

theorem bind_of_ok {x : PyS K α} {f : α → PyS K β} {s s1 : SimWorld K} {a : α} (h : x s = (.ok a, s1)) : (x >>= f) s = f a s1 := by
  rw [bind_eq, PyS.bind, h]

theorem bind_of_error {x : PyS K α} {f : α → PyS K β} {s s1 : SimWorld K} {e : Err} (h : x s = (.error e, s1)) :
    (x >>= f) s = (.error e, s1) := by
  rw [bind_eq, PyS.bind, h]

theorem bind_lift_ok {x : Except Err α} {f : α → PyS K β} {s : SimWorld K} {a : α} (h : x = .ok a) : (lift x >>= f) s = f a s :=
  bind_of_ok (by rw [lift, h])

theorem bind_get (f : SimWorld K → PyS K β) (s : SimWorld K) : (get >>= f) s = f s s := rfl

theorem bind_modify (g : SimWorld K → SimWorld K) (f : Unit → PyS K β) (s : SimWorld K) : (modify g >>= f) s = f () (g s) := rfl

theorem lift_ok {x : Except Err α} {s s' : SimWorld K} {a : α} : (lift x : PyS K α) s = (.ok a, s') ↔ x = .ok a ∧ s' = s := by
  simp [lift, eq_comm]

theorem getBlock_ok {s s' : SimWorld K} {b : Block} : (getBlock : PyS K Block) s = (.ok b, s') ↔ s.w.pr.block = some b ∧ s' = s := by
  rw [getBlock]
  cases s.w.pr.block with
  | none => simp
  | some c => simp [eq_comm]

theorem getSim_ok {i : SRef} {s s' : SimWorld K} {o : SimObj K} : getSim i s = (.ok o, s') ↔ s.sims[i]? = some o ∧ s' = s := by
  rw [getSim]
  cases s.sims[i]? with
  | none => simp
  | some c => simp [eq_comm]

theorem when_ok {b : Bool} {x : PyS K Unit} {s s' : SimWorld K} :
    (when b x) s = (.ok (), s') ↔ (b = true ∧ x s = (.ok (), s')) ∨ (b = false ∧ s' = s) := by
  cases b <;> simp [when, PyS.pure, eq_comm]

theorem bind_when_false (x : PyS K Unit) (f : Unit → PyS K β) (s : SimWorld K) : (when false x >>= f) s = f () s := rfl

theorem bind_when_raise (e : Err) (f : Unit → PyS K β) (s : SimWorld K) : (when true (raise e) >>= f) s = (.error e, s) := rfl

theorem bind_lift_error {x : Except Err α} {f : α → PyS K β} {s : SimWorld K} {e : Err} (h : x = .error e) : (lift x >>= f) s = (.error e, s) :=
  bind_of_error (by rw [lift, h])

theorem raise_ok {e : Err} {s s' : SimWorld K} {a : α} : (raise e : PyS K α) s ≠ (.ok a, s') := by simp [raise]

/-! ## Calls that leave something as it is -/

/-- The call does not change the value of `f`, whether it returns or raises. -/
def Keeps (f : SimWorld K → τ) (x : PyS K α) : Prop := ∀ s, f (x s).2 = f s

theorem Keeps.pure (f : SimWorld K → τ) (a : α) : Keeps f (PyS.pure a) := fun _ => rfl
theorem Keeps.raise (f : SimWorld K → τ) (e : Err) : Keeps f (PyS.raise e : PyS K α) := fun _ => rfl
theorem Keeps.lift (f : SimWorld K → τ) (x : Except Err α) : Keeps f (PyS.lift x) := fun _ => rfl
theorem Keeps.get (f : SimWorld K → τ) : Keeps f (PyS.get : PyS K _) := fun _ => rfl

theorem Keeps.bind {f : SimWorld K → τ} {x : PyS K α} {g : α → PyS K β} (hx : Keeps f x) (hg : ∀ a, Keeps f (g a)) :
    Keeps f (x >>= g) := by
  intro s
  rw [bind_eq, PyS.bind]
  have h := hx s
  cases hxs : x s with
  | mk r s1 =>
    rw [hxs] at h
    cases r with
    | ok a => exact (hg a s1).trans h
    | error e => exact h

theorem Keeps.getBlock (f : SimWorld K → τ) : Keeps f (PyS.getBlock : PyS K _) := fun s => by
  rw [PyS.getBlock]; cases s.w.pr.block <;> rfl

theorem Keeps.getSim (f : SimWorld K → τ) (i : SRef) : Keeps f (PyS.getSim i : PyS K _) := fun s => by
  rw [PyS.getSim]; cases s.sims[i]? <;> rfl

theorem Keeps.getD (f : SimWorld K → τ) (i : DRef) : Keeps f (PyS.getD i : PyS K _) := fun s => by
  rw [PyS.getD]; cases s.doms[i]? <;> rfl

theorem Keeps.getL (f : SimWorld K → τ) (i : LRef) : Keeps f (PyS.getL i : PyS K _) := fun s => by
  rw [PyS.getL]; cases s.lists[i]? <;> rfl

theorem Keeps.modify {f : SimWorld K → τ} {g : SimWorld K → SimWorld K} (h : ∀ s, f (g s) = f s) : Keeps f (PyS.modify g) := h

theorem Keeps.when {f : SimWorld K → τ} {b : Bool} {x : PyS K Unit} (h : Keeps f x) : Keeps f (PyS.when b x) := by
  cases b
  · exact fun _ => rfl
  · exact h

theorem Keeps.ofWorld {f : SimWorld K → τ} (h : ∀ s w, f { s with w } = f s) (x : PyM α) : Keeps f (PyS.ofWorld x) := fun s => h s _

theorem Keeps.prog {f : SimWorld K → τ} {Q A R : Type} {g : Q → PyS K A} (h : ∀ q, Keeps f (g q)) (p : Prog Q A R) : Keeps f (p.run g) := by
  induction p with
  | ret r => exact Keeps.pure _ _
  | fail e => exact Keeps.raise _ _
  | ask q k ih => exact Keeps.bind (h q) ih

end PyS

open PyS

section
variable {K τ : Type} [Field K] [LinearOrder K]

theorem keeps_appendArg {f : SimWorld K → τ} (h : ∀ s l, f { s with lists := l } = f s) (tvn c : CVal) : Keeps f (appendArg tvn c) := by
  cases c with
  | argNames r => exact Keeps.bind (Keeps.getL _ _) fun l => Keeps.when (Keeps.modify fun s => h s _)
  | _ => exact Keeps.raise _ _

theorem keeps_compileIf (f : SimWorld K → τ) (c : CVal) (b : Block) : Keeps f (compileIf c b) := by
  unfold compileIf
  split
  · exact Keeps.bind (Keeps.get _) fun s => Keeps.bind (Keeps.lift _ _) fun _ => Keeps.pure _ _
  · exact Keeps.pure _ _

/-- Creating a `DSolver` only touches lists of argument names. -/
theorem keeps_dInit {f : SimWorld K → τ} (h : ∀ s l, f { s with lists := l } = f s) (sv : CVal) (conf : Conf) : Keeps f (dInit sv conf) := by
  unfold dInit
  exact Keeps.bind (Keeps.lift _ _) fun _ => Keeps.bind (Keeps.lift _ _) fun _ => Keeps.bind (Keeps.lift _ _) fun _ =>
    Keeps.bind (Keeps.lift _ _) fun _ => Keeps.bind (Keeps.get _) fun _ => Keeps.bind (Keeps.lift _ _) fun _ =>
    Keeps.bind (Keeps.when (Keeps.raise _ _)) fun _ => Keeps.bind (keeps_appendArg h _ _) fun _ => Keeps.bind (Keeps.getBlock _) fun _ =>
    Keeps.bind (Keeps.lift _ _) fun _ => Keeps.bind (Keeps.lift _ _) fun _ => Keeps.bind (Keeps.lift _ _) fun _ =>
    Keeps.bind (keeps_compileIf _ _ _) fun _ => Keeps.pure _ _

theorem keeps_daeSystem {f : SimWorld K → τ}
    (h : ∀ (s : SimWorld K) b l, s.w.pr.block = some b →
      f { s with w := { s.w with pr := { s.w.pr with block := some { b with linearTail := l } } } } = f s) : Keeps f (daeSystem (K := K)) :=
  fun s => by
  unfold daeSystem
  rw [bind_eq, PyS.bind, PyS.getBlock]
  cases hb : s.w.pr.block with
  | none => rfl
  | some b => exact h s b _ hb

theorem keeps_daeInit {f : SimWorld K → τ} (h : ∀ s l, f { s with lists := l } = f s)
    (h' : ∀ (s : SimWorld K) b l, s.w.pr.block = some b →
      f { s with w := { s.w with pr := { s.w.pr with block := some { b with linearTail := l } } } } = f s) (ext : Ext K) (sv : CVal) (conf : Conf) :
    Keeps f (daeInit ext sv conf) := by
  unfold daeInit
  exact Keeps.bind (Keeps.lift _ _) fun _ => Keeps.bind (Keeps.lift _ _) fun _ =>
    Keeps.bind (Keeps.lift _ _) fun _ => Keeps.bind (Keeps.get _) fun _ => Keeps.bind (Keeps.lift _ _) fun _ =>
    Keeps.bind (Keeps.when (Keeps.raise _ _)) fun _ => Keeps.bind (keeps_appendArg h _ _) fun _ => Keeps.bind (keeps_daeSystem h') fun _ =>
    Keeps.bind (Keeps.lift _ _) fun _ => Keeps.bind (Keeps.lift _ _) fun _ => Keeps.pure _ _

theorem keeps_createSolver {f : SimWorld K → τ} (h : ∀ s l, f { s with lists := l } = f s)
    (h' : ∀ (s : SimWorld K) b l, s.w.pr.block = some b →
      f { s with w := { s.w with pr := { s.w.pr with block := some { b with linearTail := l } } } } = f s) (ext : Ext K) (conf : Conf) :
    Keeps f (createSolver ext conf) := by
  unfold createSolver
  refine Keeps.bind (Keeps.lift _ _) fun _ => Keeps.bind (Keeps.lift _ _) fun _ => Keeps.bind (Keeps.lift _ _) fun _ =>
    Keeps.bind (Keeps.lift _ _) fun _ => Keeps.bind (Keeps.getBlock _) fun b => ?_
  unfold solverFor
  split
  · exact Keeps.pure _ _
  · exact Keeps.bind (Keeps.lift _ _) fun _ => Keeps.pure _ _
  · exact Keeps.bind (keeps_dInit h _ _) fun _ => Keeps.pure _ _
  · exact Keeps.bind (keeps_daeInit h h' _ _ _) fun _ => Keeps.pure _ _
  · exact Keeps.raise _ _

/-! ## Solving and running -/

theorem keeps_called {f : SimWorld K → τ} (h : ∀ s l, f { s with log := l } = f s) (c : Routine) : Keeps f (called c : PyS K Unit) :=
  Keeps.modify fun s => h s _

theorem keeps_polishRoot {f : SimWorld K → τ} (h : ∀ s l, f { s with log := l } = f s) (ext : Ext K) (I : Interp K) (g : List K) (p : CVal) :
    Keeps f (polishRoot ext I g p) := by
  unfold polishRoot
  refine Keeps.bind (Keeps.getBlock _) fun b => ?_
  split
  · exact Keeps.bind (keeps_called h _) fun _ => Keeps.prog (fun _ => Keeps.lift _ _) _
  · exact Keeps.bind (keeps_called h _) fun _ => Keeps.prog (fun _ => Keeps.lift _ _) _
  · exact Keeps.bind (keeps_called h _) fun _ => Keeps.prog (fun _ => Keeps.lift _ _) _
  · exact Keeps.bind (keeps_called h _) fun _ => Keeps.prog (fun _ => Keeps.lift _ _) _
  · exact Keeps.pure _ _

theorem keeps_sympyMech {f : SimWorld K → τ} (h : ∀ s l, f { s with log := l } = f s) (ext : Ext K) : Keeps f (sympyMech ext) := by
  unfold sympyMech
  exact Keeps.bind (Keeps.getBlock _) fun _ => Keeps.bind (keeps_called h _) fun _ => Keeps.bind (Keeps.lift _ _) fun _ => Keeps.lift _ _

theorem keeps_laSolve {f : SimWorld K → τ} (h : ∀ s l, f { s with log := l } = f s) (ext : Ext K) (conf : Conf) (m : Option Mech) :
    Keeps f (laSolve ext conf m) := by
  unfold laSolve
  split
  · exact keeps_sympyMech h ext
  · unfold scipyMech
    exact Keeps.bind (Keeps.getBlock _) fun _ => Keeps.bind (keeps_called h _) fun _ => Keeps.bind (Keeps.lift _ _) fun _ => Keeps.pure _ _
  · unfold laSymbolicMech
    exact Keeps.bind (Keeps.getBlock _) fun _ => Keeps.bind (Keeps.lift _ _) fun _ => Keeps.bind (Keeps.lift _ _) fun _ =>
      Keeps.bind (keeps_called h _) fun _ => Keeps.bind (Keeps.lift _ _) fun _ => Keeps.lift _ _
  · exact Keeps.raise _ _

theorem keeps_polished {f : SimWorld K → τ} (h : ∀ s l, f { s with log := l } = f s) (ext : Ext K) (I : Interp K) (g : List K) (p : CVal) :
    Keeps f (polished ext I g p) := by
  unfold polished
  split
  · exact Keeps.pure _ _
  · exact Keeps.bind (keeps_polishRoot h _ _ _ _) fun _ => Keeps.pure _ _

theorem keeps_nlaSolve {f : SimWorld K → τ} (h : ∀ s l, f { s with log := l } = f s) (ext : Ext K) (I : Interp K) (conf : Conf) (m : Mech) :
    Keeps f (nlaSolve ext I conf m) := by
  unfold nlaSolve
  split
  · exact keeps_sympyMech h ext
  · unfold nlaSymbolicMech
    exact Keeps.bind (Keeps.getBlock _) fun _ => Keeps.bind (Keeps.lift _ _) fun _ => Keeps.bind (Keeps.lift _ _) fun _ =>
      Keeps.bind (Keeps.lift _ _) fun _ => Keeps.bind (keeps_polished h _ _ _ _) fun _ =>
      Keeps.bind (keeps_called h _) fun _ => Keeps.bind (Keeps.lift _ _) fun _ => Keeps.lift _ _

theorem keeps_extendKeys {f : SimWorld K → τ}
    (h : ∀ (s : SimWorld K) b l, s.w.pr.block = some b →
      f { s with w := { s.w with pr := { s.w.pr with block := some { b with varList := l } } } } = f s) (m : Dict String K) :
    Keeps f (extendKeys m) := fun s => by
  unfold extendKeys
  rw [bind_eq, PyS.bind, PyS.getBlock]
  cases hb : s.w.pr.block with
  | none => rfl
  | some b => exact h s b _ hb

theorem keeps_rhs {f : SimWorld K → τ} {o : DObj}
    (h : o.compiled ≠ none → ∀ (s : SimWorld K) b l, s.w.pr.block = some b →
      f { s with w := { s.w with pr := { s.w.pr with block := some { b with varList := l } } } } = f s) (ext : Ext K) (I : Interp K)
    (Y : List K) (t : K) : Keeps f (o.rhs ext I Y t) := by
  unfold DObj.rhs
  refine Keeps.bind (Keeps.get _) fun _ => Keeps.bind (Keeps.getBlock _) fun _ => Keeps.bind (Keeps.lift _ _) fun _ => ?_
  cases hc : o.compiled with
  | none => exact Keeps.lift _ _
  | some p =>
    obtain ⟨names, exprs⟩ := p
    exact Keeps.bind (keeps_extendKeys (h (by rw [hc]; simp)) _) fun _ => Keeps.bind (Keeps.lift _ _) fun _ => Keeps.lift _ _

theorem keeps_record {f : SimWorld K → τ} (h : ∀ s l, f { s with doms := l } = f s) (conf : Conf) (dom : CVal) (rows : List (List K)) :
    Keeps f (record conf dom rows) := by
  unfold record
  split
  · refine Keeps.bind (Keeps.getD _ _) fun _ => Keeps.bind (Keeps.lift _ _) fun _ => Keeps.bind (Keeps.modify fun s => h s _) fun _ =>
      Keeps.bind (Keeps.lift _ _) fun m => ?_
    split
    · exact Keeps.bind (Keeps.lift _ _) fun _ => Keeps.modify fun s => h s _
    · exact Keeps.raise _ _
  · exact Keeps.raise _ _

theorem keeps_integrate {f : SimWorld K → τ} (hl : ∀ s l, f { s with log := l } = f s) {o : DObj}
    (h : o.compiled ≠ none → ∀ (s : SimWorld K) b l, s.w.pr.block = some b →
      f { s with w := { s.w with pr := { s.w.pr with block := some { b with varList := l } } } } = f s) (ext : Ext K) (I : Interp K)
    (y0 tp : List K) : Keeps f (integrate ext I o y0 tp) := by
  unfold integrate
  split
  · exact Keeps.bind (keeps_called hl _) fun _ => Keeps.bind (Keeps.prog (fun _ => keeps_rhs h _ _ _ _) _) fun _ => Keeps.pure _ _
  · exact Keeps.bind (keeps_called hl _) fun _ => Keeps.bind (Keeps.prog (fun _ => keeps_rhs h _ _ _ _) _) fun _ => Keeps.pure _ _
  · exact Keeps.bind (keeps_called hl _) fun _ => Keeps.prog (fun _ => keeps_rhs h _ _ _ _) _
  · exact Keeps.raise _ _

theorem keeps_dSolve {f : SimWorld K → τ} (hl : ∀ s l, f { s with log := l } = f s) (hd : ∀ s l, f { s with doms := l } = f s) {o : DObj}
    (h : o.compiled ≠ none → ∀ (s : SimWorld K) b l, s.w.pr.block = some b →
      f { s with w := { s.w with pr := { s.w.pr with block := some { b with varList := l } } } } = f s) (ext : Ext K) (I : Interp K)
    (conf : Conf) : Keeps f (dSolve ext I conf o) := by
  unfold dSolve
  exact Keeps.bind (Keeps.lift _ _) fun _ => Keeps.bind (Keeps.lift _ _) fun _ => Keeps.bind (Keeps.lift _ _) fun _ =>
    Keeps.bind (Keeps.lift _ _) fun _ => Keeps.bind (Keeps.lift _ _) fun _ => Keeps.bind (Keeps.get _) fun _ =>
    Keeps.bind (Keeps.lift _ _) fun _ => Keeps.bind (Keeps.lift _ _) fun _ => Keeps.bind (Keeps.when (Keeps.raise _ _)) fun _ =>
    Keeps.bind (Keeps.lift _ _) fun _ => Keeps.bind (keeps_integrate hl h _ _ _ _) fun _ => Keeps.bind (Keeps.lift _ _) fun _ =>
    Keeps.bind (Keeps.lift _ _) fun _ => Keeps.bind (keeps_record hd _ _ _) fun _ => Keeps.pure _ _

theorem keeps_daeSolve {f : SimWorld K → τ} (hl : ∀ s l, f { s with log := l } = f s) (hd : ∀ s l, f { s with doms := l } = f s) (ext : Ext K)
    (I : Interp K) (conf : Conf) (o : DaeObj) : Keeps f (daeSolve ext I conf o) := by
  unfold daeSolve
  refine Keeps.bind (Keeps.lift _ _) fun _ => Keeps.bind (Keeps.lift _ _) fun _ => Keeps.bind (Keeps.lift _ _) fun _ =>
    Keeps.bind (Keeps.lift _ _) fun _ => Keeps.bind (Keeps.when (Keeps.raise _ _)) fun _ => Keeps.bind (Keeps.lift _ _) fun _ =>
    Keeps.bind (Keeps.get _) fun _ => Keeps.bind (Keeps.getBlock _) fun _ => Keeps.bind (Keeps.lift _ _) fun _ =>
    Keeps.bind (Keeps.lift _ _) fun _ => Keeps.bind (Keeps.lift _ _) fun _ => Keeps.bind ?_ fun _ => Keeps.bind (Keeps.lift _ _) fun _ =>
    Keeps.bind (Keeps.lift _ _) fun _ => Keeps.bind (keeps_record hd _ _ _) fun _ => Keeps.pure _ _
  unfold integrateDae
  split
  · exact Keeps.bind (Keeps.lift _ _) fun _ => Keeps.bind (Keeps.lift _ _) fun _ => Keeps.bind (Keeps.lift _ _) fun _ =>
      Keeps.bind (keeps_called hl _) fun _ => Keeps.prog (fun _ => Keeps.lift _ _) _
  · exact Keeps.raise _ _

/-- Whether the solver can touch the list of unknowns. -/
def SolverObj.extends : SolverObj → Prop
  | .d o => o.compiled ≠ none
  | _ => False

theorem keeps_solve {f : SimWorld K → τ} (hl : ∀ s l, f { s with log := l } = f s) (hd : ∀ s l, f { s with doms := l } = f s) {sv : SolverObj}
    (h : sv.extends → ∀ (s : SimWorld K) b l, s.w.pr.block = some b →
      f { s with w := { s.w with pr := { s.w.pr with block := some { b with varList := l } } } } = f s) (ext : Ext K) (I : Interp K)
    (conf : Conf) : Keeps f (sv.solve ext I conf) := by
  cases sv with
  | la m => exact Keeps.bind (keeps_laSolve hl _ _ _) fun _ => Keeps.pure _ _
  | nla m => exact Keeps.bind (keeps_nlaSolve hl _ _ _ _) fun _ => Keeps.pure _ _
  | d o => exact keeps_dSolve hl hd h _ _ _
  | dae o => exact keeps_daeSolve hl hd _ _ _ _

theorem keeps_getResults (f : SimWorld K → τ) (i : SRef) (rt : RetType) : Keeps f (getResults i rt : PyS K _) := by
  have ht : ∀ (c : Option Conf), Keeps f (domainTables c : PyS K _) := by
    intro c
    unfold domainTables
    split
    · exact Keeps.raise _ _
    · refine Keeps.bind (Keeps.lift _ _) fun d => ?_
      split
      · refine Keeps.bind (Keeps.getD _ _) fun d => ?_
        split
        · exact Keeps.pure _ _
        · exact Keeps.raise _ _
      · exact Keeps.raise _ _
  have ht' : ∀ (c : Option Conf), Keeps f (timeResults c rt : PyS K _) := by
    intro c
    unfold timeResults domainSetting
    split
    · refine Keeps.bind ?_ fun _ => Keeps.raise _ _
      split
      · exact Keeps.raise _ _
      · exact Keeps.lift _ _
    · exact Keeps.bind (ht _) fun _ => Keeps.lift _ _
  unfold getResults
  refine Keeps.bind (Keeps.getSim _ _) fun o => Keeps.bind (Keeps.getBlock _) fun b => ?_
  split
  · exact Keeps.lift _ _
  · exact Keeps.lift _ _
  · exact ht' _
  · exact ht' _
  · exact Keeps.raise _ _

/-- Reading a simulation and writing it with one attribute changed. -/
theorem keeps_setSim {α : Type} {f : SimWorld K → τ} {i : SRef} {g : SimObj K → SimObj K} {k : SimObj K → PyS K α}
    (h : ∀ s o, s.sims[i]? = some o → f { s with sims := s.sims.set i (g o) } = f s) (hk : ∀ o, Keeps f (k o)) :
    Keeps f (PyS.getSim i >>= fun o => PyS.setSim i (g o) >>= fun _ => k o) := fun s => by
  rw [bind_eq, PyS.bind, PyS.getSim]
  cases ho : s.sims[i]? with
  | none => rfl
  | some o => exact (hk o _).trans (h s o ho)

theorem keeps_getStatus {f : SimWorld K → τ} {i : SRef}
    (h : ∀ s o st, s.sims[i]? = some o → f { s with sims := s.sims.set i { o with status := st } } = f s) : Keeps f (getStatus i : PyS K _) := by
  unfold getStatus
  exact Keeps.bind (keeps_getResults _ _ _) fun r => keeps_setSim (fun s o ho => h s o _ ho) fun _ => Keeps.pure _ _

theorem keeps_residualTable (f : SimWorld K → τ) (i : SRef) (l : List SObj) : Keeps f (residualTable i l : PyS K _) := by
  induction l with
  | nil => exact Keeps.pure _ _
  | cons e t ih =>
    unfold residualTable
    refine Keeps.bind ?_ fun _ => ih
    split
    · exact Keeps.raise _ _
    · exact keeps_getResults _ _ _

theorem keeps_epilogue {f : SimWorld K → τ} {i : SRef}
    (h : ∀ s o st, s.sims[i]? = some o → f { s with sims := s.sims.set i { o with status := st } } = f s) (pt : CVal) (m r : Bool) :
    Keeps f (epilogue i pt m r : PyS K _) := by
  unfold epilogue
  exact Keeps.bind (Keeps.when (Keeps.bind (keeps_getStatus h) fun _ => Keeps.pure _ _)) fun _ => Keeps.bind (Keeps.getBlock _) fun _ =>
    Keeps.when (keeps_residualTable _ _ _)

theorem keeps_sanity (f : SimWorld K → τ) (ext : Ext K) (b : Bool) : Keeps f (Sloth.sanity ext b) := by
  cases b
  · exact Keeps.pure _ _
  · intro s
    have : (dofTest ext.sr s.w).2 = s.w := by
      unfold dofTest
      split
      · rfl
      · split
        · rfl
        · split <;> rfl
    show f { s with w := (dofTest ext.sr s.w).2 } = f s
    rw [this]

theorem keeps_solveStore {f : SimWorld K → τ} (hl : ∀ s l, f { s with log := l } = f s) (hd : ∀ s l, f { s with doms := l } = f s) {sv : SolverObj}
    (h : sv.extends → ∀ (s : SimWorld K) b l, s.w.pr.block = some b →
      f { s with w := { s.w with pr := { s.w.pr with block := some { b with varList := l } } } } = f s)
    {i : SRef} (ho : ∀ s o p, s.sims[i]? = some o → f { s with sims := s.sims.set i { o with output := p } } = f s)
    (hd' : ∀ s o p, s.sims[i]? = some o → f { s with sims := s.sims.set i { o with domain := p } } = f s)
    (ext : Ext K) (I : Interp K) (conf : Conf) : Keeps f (solveStore ext I i conf sv) := by
  unfold solveStore
  exact Keeps.bind (keeps_solve hl hd h _ _ _) fun out => keeps_setSim (fun s o h => ho s o _ h) fun _ =>
    Keeps.bind (Keeps.lift _ _) fun d => fun s => by
      rw [bind_eq, PyS.bind, PyS.getSim]
      cases hs : s.sims[i]? with
      | none => rfl
      | some o => exact hd' s o d hs

/-- Asking for the type only reads. -/
theorem Keeps.askKind (f : SimWorld K → τ) (pt : CVal) : Keeps f (Sloth.askKind pt : PyS K _) := by
  unfold Sloth.askKind
  split
  · exact Keeps.bind (Keeps.getBlock _) fun _ => Keeps.pure _ _
  · exact Keeps.pure _ _

theorem askKind_reads {pt : CVal} {s s' : SimWorld K} {r : Except Err (Option ProblemKind)} (h : askKind pt s = (r, s')) : s' = s := by
  have : (askKind pt s).2 = s := Keeps.askKind (fun s => s) pt s
  rw [h] at this; exact this

theorem askKind_same {pt : CVal} {s s' : SimWorld K} {k : Option ProblemKind} (h : askKind pt s = (.ok k, s')) : s' = s := by
  have : (askKind pt s).2 = s := Keeps.askKind (fun s => s) pt s
  rw [h] at this; exact this

/-- With a resolved problem, its type decides if none is configured. -/
theorem ask_run {s : SimWorld K} {b : Block} (hb : s.w.pr.block = some b) {pt : CVal} {α : Type} {x : PyS K Unit} {g : Unit → PyS K α} :
    (askKind pt >>= fun k => when (!runnable pt k) x >>= g) s = (when (!runnable pt b.problemType) x >>= g) s := by
  unfold askKind
  split
  · next h =>
    subst h
    show ((getBlock >>= fun b => PyS.pure b.problemType) >>= fun k => when (!runnable .none k) x >>= g) s = _
    rw [bind_of_ok (s1 := s) (a := b.problemType) (by rw [bind_of_ok (getBlock_ok.2 ⟨hb, rfl⟩)]; rfl)]
  · next h => cases pt <;> first | rfl | exact absurd rfl h

end
end Sloth
