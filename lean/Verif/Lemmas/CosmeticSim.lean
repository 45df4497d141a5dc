import Verif.Lemmas.Cosmetic
import Verif.Model.Reports

/-!
# What is only printed, with simulations
-/

namespace Sloth
open PyS

section
variable {K : Type}

/-- Two states that differ in texts and bounds of the heap only. -/
structure SimWorld.Cosm (s t : SimWorld K) : Prop where
  w : s.w.Cosm t.w
  lists : s.lists = t.lists
  doms : s.doms = t.doms
  sims : s.sims = t.sims
  log : s.log = t.log

/-- A call that returns the same in both and leaves states that differ in texts and bounds only. -/
def Deaf {α : Type} (x : PyS K α) : Prop := ∀ s t : SimWorld K, s.Cosm t → (x s).1 = (x t).1 ∧ (x s).2.Cosm (x t).2

namespace Deaf
variable {α β : Type}

theorem bind {x : PyS K α} {f : α → PyS K β} (h : Deaf x) (hf : ∀ a, Deaf (f a)) : Deaf (x >>= f) := fun s t hst => by
  have h1 := h s t hst
  show (PyS.bind x f s).1 = (PyS.bind x f t).1 ∧ (PyS.bind x f s).2.Cosm (PyS.bind x f t).2
  unfold PyS.bind
  cases hx : x s with
  | mk a s' =>
    cases hy : x t with
    | mk b t' =>
      rw [hx, hy] at h1
      obtain ⟨rfl, h2⟩ := h1
      cases a
      · exact ⟨rfl, h2⟩
      · exact hf _ _ _ h2

theorem ret (a : α) : Deaf (PyS.pure a : PyS K α) := fun _ _ h => ⟨rfl, h⟩
theorem raise (e : Err) : Deaf (PyS.raise e : PyS K α) := fun _ _ h => ⟨rfl, h⟩
theorem lift (x : Except Err α) : Deaf (PyS.lift x : PyS K α) := fun _ _ h => ⟨rfl, h⟩

theorem when (b : Bool) {x : PyS K Unit} (h : Deaf x) : Deaf (PyS.when b x) := by
  cases b
  · exact ret ()
  · exact h

/-- The state may be looked at if only what is the same is used. -/
theorem get {f : SimWorld K → PyS K α} (h : ∀ s t, s.Cosm t → f s = f t) (hf : ∀ s, Deaf (f s)) : Deaf (PyS.get >>= f) := fun s t hst => by
  show (f s s).1 = (f t t).1 ∧ (f s s).2.Cosm (f t t).2
  rw [h s t hst]
  exact hf t s t hst

theorem ofWorld {x : PyM α} (h : Blind Eq x x) : Deaf (PyS.ofWorld x : PyS K α) := fun s t hst => by
  have h1 := h s.w t.w hst.w
  refine ⟨?_, h1.2, hst.lists, hst.doms, hst.sims, hst.log⟩
  have h2 := h1.1
  show (x s.w).1 = (x t.w).1
  cases hx : (x s.w).1 <;> cases hy : (x t.w).1 <;> rw [hx, hy] at h2 <;> first | exact h2.elim | (cases h2; rfl)

theorem called (c : Routine) : Deaf (PyS.called c : PyS K Unit) := fun _ _ h => ⟨rfl, h.w, h.lists, h.doms, h.sims, congrArg (· ++ [c]) h.log⟩

theorem getD (r : DRef) : Deaf (PyS.getD r : PyS K _) := fun s t h => by
  unfold PyS.getD
  rw [h.doms]
  cases t.doms[r]? <;> exact ⟨rfl, h⟩

theorem getSim (r : SRef) : Deaf (PyS.getSim r : PyS K _) := fun s t h => by
  unfold PyS.getSim
  rw [h.sims]
  cases t.sims[r]? <;> exact ⟨rfl, h⟩

theorem getL (r : LRef) : Deaf (PyS.getL r : PyS K _) := fun s t h => by
  unfold PyS.getL
  rw [h.lists]
  cases t.lists[r]? <;> exact ⟨rfl, h⟩

theorem setD (r : DRef) (d : DomainObj K) : Deaf (PyS.setD r d) := fun _ _ h => ⟨rfl, h.w, h.lists, congrArg (List.set · r d) h.doms, h.sims, h.log⟩
theorem setSim (r : SRef) (d : SimObj K) : Deaf (PyS.setSim r d) := fun _ _ h => ⟨rfl, h.w, h.lists, h.doms, congrArg (List.set · r d) h.sims, h.log⟩
theorem setL (r : LRef) (d : List CVal) : Deaf (PyS.setL r d : PyS K Unit) := fun _ _ h => ⟨rfl, h.w, congrArg (List.set · r d) h.lists, h.doms, h.sims, h.log⟩

theorem getBlock : Deaf (PyS.getBlock : PyS K Block) := fun s t h => by
  unfold PyS.getBlock
  rw [h.w.pr]
  cases t.w.pr.block <;> exact ⟨rfl, h⟩

/-- A change of the problem. -/
theorem problem (f : ProblemObj → ProblemObj) : Deaf (PyS.modify fun s => { s with w := { s.w with pr := f s.w.pr } } : PyS K Unit) := fun _ _ h =>
  ⟨rfl, ⟨h.w.qs, h.w.es, h.w.ms, h.w.ps, congrArg f h.w.pr, h.w.uid, h.w.puid⟩, h.lists, h.doms, h.sims, h.log⟩

theorem run {Q A R : Type} {f : Q → PyS K A} (h : ∀ q, Deaf (f q)) (p : Prog Q A R) : Deaf (p.run f) := by
  induction p with
  | ret r => exact ret r
  | fail e => exact raise e
  | ask q k ih => exact bind (h q) fun a => ih a

end Deaf

/-! ## What solvers read of equations -/

section
variable {l l' : List EqObj}

theorem EqObj.Twin.elem_eq {e f : EqObj} (h : e.Twin Eq f) : (e.elem.map fun p => (p.1.says, p.2.says)) = f.elem.map fun p => (p.1.says, p.2.says) := h.sameEqn.elem

theorem setUpDiffY_cosm (h : List.Forall₂ (EqObj.Twin Eq) l l') : setUpDiffY l = setUpDiffY l' := by
  funext rs
  unfold setUpDiffY
  congr 1
  funext acc r
  rcases rel_cases (forall₂_get h r) with ⟨h1, h2⟩ | ⟨e, f, h1, h2, hef⟩
  · simp only [h1, h2]
  · simp only [h1, h2]
    rcases rel_cases hef.elem with ⟨g1, g2⟩ | ⟨x, y, g1, g2, hxy⟩
    · simp only [g1, g2]
    · simp only [g1, g2, hxy.1.symMap.eq]

theorem elementary_cosm (h : List.Forall₂ (EqObj.Twin Eq) l l') (b : Block) (s : EqObj.Side) : b.elementary l s = b.elementary l' s := by
  simp only [Block.elementary, Blind.getEquationList h]

theorem diffList_cosm (h : List.Forall₂ (EqObj.Twin Eq) l l') (terms : Sym → List Sym) (rs : List ERef) : diffList terms l rs = diffList terms l' rs := by
  induction rs with
  | nil => rfl
  | cons r t ih =>
    unfold diffList
    rw [ih]
    rcases rel_cases (forall₂_get h r) with ⟨h1, h2⟩ | ⟨e, f, h1, h2, hef⟩
    · simp only [h1, h2]
    · simp only [h1, h2, hef.symbolicObject]

theorem residualSystem_cosm (h : List.Forall₂ (EqObj.Twin Eq) l l') (ext : Ext K) (b : Block) : residualSystem ext l b = residualSystem ext l' b := by
  simp only [residualSystem, diffList_cosm h, Blind.getEquationList h]

theorem diffYinOrder_cosm (h : List.Forall₂ (EqObj.Twin Eq) l l') (ext : Ext K) (rs : List ERef) : diffYinOrder ext l rs = diffYinOrder ext l' rs := by
  unfold diffYinOrder
  congr 1
  funext r
  rcases rel_cases (forall₂_get h r) with ⟨h1, h2⟩ | ⟨e, f, h1, h2, hef⟩
  · simp only [h1, h2]
  · simp only [h1, h2]
    rcases rel_cases hef.elem with ⟨g1, g2⟩ | ⟨x, y, g1, g2, hxy⟩
    · simp only [g1, g2]
    · simp only [g1, g2, hxy.1.sym]

end

section
variable [Field K] [LinearOrder K] {l l' : List EqObj}

theorem diffFlags_cosm (h : List.Forall₂ (EqObj.Twin Eq) l l') (rs : List ERef) : (diffFlags l rs : List K) = diffFlags l' rs := by
  unfold diffFlags
  congr 1
  funext r
  rcases rel_cases (forall₂_get h r) with ⟨h1, h2⟩ | ⟨e, f, h1, h2, hef⟩
  · simp only [h1, h2]
  · simp only [h1, h2, Option.bind_some, hef.type]

theorem stateMap_cosm (h : List.Forall₂ (EqObj.Twin Eq) l l') (sr : SRepr) (b : Block) (tn : Option (List String)) (dy : List String) (Y : List K) (t : K) :
    stateMap sr l b tn dy Y t = stateMap sr l' b tn dy Y t := by
  have : ∀ ns (d : Dict String K), addTimes sr l b t ns d = addTimes sr l' b t ns d := by
    intro ns
    induction ns with
    | nil => exact fun _ => rfl
    | cons n ns ih => intro d; simp only [addTimes, Blind.timeDeclared h, ih]
  cases tn <;> simp only [stateMap, this]

theorem evalSystem_cosm (h : List.Forall₂ (EqObj.Twin Eq) l l') (I : Interp K) (m : Dict String K) (rs : List ERef) : evalSystem I l m rs = evalSystem I l' m rs := by
  unfold evalSystem
  congr 1
  funext r
  rcases rel_cases (forall₂_get h r) with ⟨h1, h2⟩ | ⟨e, f, h1, h2, hef⟩
  · simp only [h1, h2]
  · simp only [h1, h2, EqObj.evalRhs, EqObj.sideNode]
    rcases rel_cases hef.elem with ⟨g1, g2⟩ | ⟨x, y, g1, g2, hxy⟩
    · simp only [g1, g2]
    · simp only [g1, g2, ok_bind, hxy.2.sym]

end

/-! ## Solvers -/

namespace Deaf
variable [Field K] [LinearOrder K] (ext : Ext K) (I : Interp K)

theorem polishRoot (g : List K) (p : CVal) : Deaf (Sloth.polishRoot ext I g p) := by
  unfold Sloth.polishRoot
  refine bind getBlock fun b => ?_
  split
  · exact bind (called _) fun _ => run (fun q => lift _) _
  · exact bind (called _) fun _ => run (fun q => lift _) _
  · exact bind (called _) fun _ => run (fun q => lift _) _
  · exact bind (called _) fun _ => run (fun q => lift _) _
  · exact ret _

theorem sympyMech : Deaf (Sloth.sympyMech ext) := bind getBlock fun _ => bind (called _) fun _ => bind (lift _) fun _ => lift _
theorem scipyMech : Deaf (Sloth.scipyMech ext) := bind getBlock fun _ => bind (called _) fun _ => bind (lift _) fun _ => ret _
theorem laSymbolicMech (c : Conf) : Deaf (Sloth.laSymbolicMech ext c) :=
  bind getBlock fun _ => bind (lift _) fun _ => bind (lift _) fun _ => bind (called _) fun _ => bind (lift _) fun _ => lift _

theorem polished (x : List K) (p : CVal) : Deaf (Sloth.polished ext I x p) := by
  unfold Sloth.polished
  split
  · exact ret _
  · exact bind (polishRoot ext I _ _) fun _ => ret _

theorem nlaSymbolicMech (c : Conf) : Deaf (Sloth.nlaSymbolicMech ext I c) :=
  bind getBlock fun _ => bind (lift _) fun _ => bind (lift _) fun _ => bind (lift _) fun _ => bind (polished ext I _ _) fun _ => bind (called _) fun _ =>
    bind (lift _) fun _ => lift _

theorem laSolve (c : Conf) (m : Option Mech) : Deaf (Sloth.laSolve ext c m) := by
  unfold Sloth.laSolve
  split
  · exact sympyMech ext
  · exact scipyMech ext
  · exact laSymbolicMech ext c
  · exact raise _

theorem nlaSolve (c : Conf) (m : Mech) : Deaf (Sloth.nlaSolve ext I c m) := by
  unfold Sloth.nlaSolve
  split
  · exact sympyMech ext
  · exact nlaSymbolicMech ext I c

theorem appendArg (t c : CVal) : Deaf (Sloth.appendArg t c : PyS K Unit) := by
  unfold Sloth.appendArg
  split
  · exact bind (getL _) fun _ => when _ (setL _ _)
  · exact raise _
  · exact raise _

theorem compileIf (c : CVal) (b : Block) : Deaf (Sloth.compileIf c b : PyS K _) := by
  unfold Sloth.compileIf
  split
  · exact get (fun s t h => by rw [elementary_cosm h.w.es]) fun _ => bind (lift _) fun _ => ret _
  · exact ret _

theorem dInit (sv : CVal) (c : Conf) : Deaf (Sloth.dInit sv c : PyS K _) := by
  unfold Sloth.dInit
  refine bind (lift _) fun _ => bind (lift _) fun _ => bind (lift _) fun _ => bind (lift _) fun _ => get (fun s t h => ?_) fun s => ?_
  · simp only [h.w.pr, setUpDiffY_cosm h.w.es]
  · exact bind (lift _) fun _ => bind (when _ (raise _)) fun _ => bind (appendArg _ _) fun _ => bind getBlock fun _ => bind (lift _) fun _ =>
      bind (lift _) fun _ => bind (lift _) fun _ => bind (compileIf _ _) fun _ => ret _

theorem extendKeys (m : Dict String K) : Deaf (Sloth.extendKeys m) := by
  unfold Sloth.extendKeys
  refine bind getBlock fun b => bind (problem fun p => { p with block := some { b with varList := _ } }) fun _ => ret _

theorem rhs (o : DObj) (Y : List K) (t : K) : Deaf (o.rhs ext I Y t) := by
  unfold DObj.rhs
  refine get (fun s t h => ?_) fun s => ?_
  · simp only [h.w.pr, stateMap_cosm h.w.es, evalSystem_cosm h.w.es]
  · refine bind getBlock fun b => bind (lift _) fun m => ?_
    split
    · exact bind (extendKeys m) fun _ => bind (lift _) fun _ => lift _
    · exact lift _

theorem record (c : Conf) (d : CVal) (rows : List (List K)) : Deaf (Sloth.record c d rows) := by
  unfold Sloth.record
  split
  · refine bind (getD _) fun _ => bind (lift _) fun _ => bind (setD _ _) fun _ => bind (lift _) fun m => ?_
    split
    · exact bind (lift _) fun _ => setD _ _
    · exact raise _
  · exact raise _

theorem integrate (o : DObj) (y0 tp : List K) : Deaf (Sloth.integrate ext I o y0 tp) := by
  unfold Sloth.integrate
  split
  · exact bind (called _) fun _ => bind (run (fun q => rhs ext I o _ _) _) fun _ => ret _
  · exact bind (called _) fun _ => bind (run (fun q => rhs ext I o _ _) _) fun _ => ret _
  · exact bind (called _) fun _ => run (fun q => rhs ext I o _ _) _
  · exact raise _

theorem dSolve (c : Conf) (o : DObj) : Deaf (Sloth.dSolve ext I c o) := by
  unfold Sloth.dSolve
  refine bind (lift _) fun _ => bind (lift _) fun _ => bind (lift _) fun _ => bind (lift _) fun _ => bind (lift _) fun _ => get (fun s t h => ?_) fun s => ?_
  · simp only [h.w.pr, diffYinOrder_cosm h.w.es]
  · exact bind (lift _) fun _ => bind (lift _) fun _ => bind (when _ (raise _)) fun _ => bind (lift _) fun _ => bind (integrate ext I o _ _) fun _ =>
      bind (lift _) fun _ => bind (lift _) fun _ => bind (record _ _ _) fun _ => ret _

theorem daeSystem : Deaf (Sloth.daeSystem : PyS K Unit) := by
  unfold Sloth.daeSystem
  exact bind getBlock fun b => problem fun p => { p with block := some { b with linearTail := b.linearTail ++ [b.nonlinear] } }

theorem daeInit (sv : CVal) (c : Conf) : Deaf (Sloth.daeInit ext sv c) := by
  unfold Sloth.daeInit
  refine bind (lift _) fun _ => bind (lift _) fun _ => bind (lift _) fun _ => get (fun s t h => ?_) fun s => ?_
  · simp only [h.w.pr, Sloth.daeCompile, residualSystem_cosm h.w.es]
  · exact bind (lift _) fun _ => bind (when _ (raise _)) fun _ => bind (appendArg _ _) fun _ => bind daeSystem fun _ => bind (lift _) fun _ => bind (lift _) fun _ => ret _

theorem integrateDae (c : Conf) (o : DaeObj) (f y yd tp : List K) : Deaf (Sloth.integrateDae ext I c o f y yd tp) := by
  unfold Sloth.integrateDae
  split
  · exact bind (lift _) fun _ => bind (lift _) fun _ => bind (lift _) fun _ => bind (called _) fun _ => run (fun q => lift _) _
  · exact raise _

theorem daeSolve (c : Conf) (o : DaeObj) : Deaf (Sloth.daeSolve ext I c o) := by
  unfold Sloth.daeSolve
  refine bind (lift _) fun _ => bind (lift _) fun _ => bind (lift _) fun _ => bind (lift _) fun _ => bind (when _ (raise _)) fun _ => bind (lift _) fun _ =>
    get (fun s t h => ?_) fun s => ?_
  · simp only [h.w.pr, diffList_cosm h.w.es, diffFlags_cosm h.w.es]
  · exact bind getBlock fun _ => bind (lift _) fun _ => bind (lift _) fun _ => bind (lift _) fun _ => bind (integrateDae ext I _ _ _ _ _ _) fun _ =>
      bind (lift _) fun _ => bind (lift _) fun _ => bind (record _ _ _) fun _ => ret _

theorem solverFor (c : Conf) (a b d e : CVal) (k : Option ProblemKind) : Deaf (Sloth.solverFor ext c a b d e k) := by
  unfold Sloth.solverFor
  split
  · exact ret _
  · exact bind (lift _) fun _ => ret _
  · exact bind (dInit _ _) fun _ => ret _
  · exact bind (daeInit ext _ _) fun _ => ret _
  · exact raise _

theorem createSolver (c : Conf) : Deaf (Sloth.createSolver ext c) :=
  bind (lift _) fun _ => bind (lift _) fun _ => bind (lift _) fun _ => bind (lift _) fun _ => bind getBlock fun _ => solverFor ext _ _ _ _ _ _

theorem solve (c : Conf) (o : SolverObj) : Deaf (o.solve ext I c) := by
  unfold SolverObj.solve
  split
  · exact bind (laSolve ext c _) fun _ => ret _
  · exact bind (nlaSolve ext I c _) fun _ => ret _
  · exact dSolve ext I c _
  · exact daeSolve ext I c _

/-! ## Simulations -/

theorem setConfigurations (i : SRef) (kw : Conf) (f d : Option Conf) : Deaf (Sloth.setConfigurations i kw f d : PyS K Unit) := by
  unfold Sloth.setConfigurations
  refine get (fun s t h => ?_) fun s => ?_
  · simp only [h.w.pr]
  · exact bind (lift _) fun _ => bind (getSim _) fun _ => setSim _ _

theorem domainTables (c : Option Conf) : Deaf (Sloth.domainTables c : PyS K _) := by
  unfold Sloth.domainTables
  split
  · exact raise _
  · refine bind (lift _) fun d => ?_
    split
    · refine bind (getD _) fun d => ?_
      split
      · exact ret _
      · exact raise _
    · exact raise _

theorem timeResults (c : Option Conf) (rt : RetType) : Deaf (Sloth.timeResults c rt : PyS K _) := by
  unfold Sloth.timeResults Sloth.domainSetting
  split
  · refine bind ?_ fun _ => raise _
    split
    · exact raise _
    · exact lift _
  · exact bind (domainTables _) fun _ => lift _

theorem getResults (i : SRef) (rt : RetType) : Deaf (Sloth.getResults i rt : PyS K _) := by
  unfold Sloth.getResults
  refine bind (getSim _) fun o => bind getBlock fun b => ?_
  split
  · exact lift _
  · exact lift _
  · exact timeResults _ _
  · exact timeResults _ _
  · exact raise _

theorem getStatus (i : SRef) : Deaf (Sloth.getStatus i : PyS K _) :=
  bind (getResults i _) fun _ => bind (getSim _) fun _ => bind (setSim _ _) fun _ => ret _

theorem residualTable (i : SRef) (l : List SObj) : Deaf (Sloth.residualTable i l : PyS K _) := by
  induction l with
  | nil => exact ret _
  | cons e t ih =>
    unfold Sloth.residualTable
    refine bind ?_ fun _ => ih
    split
    · exact raise _
    · exact getResults i _

theorem askKind (pt : CVal) : Deaf (Sloth.askKind pt : PyS K _) := by
  unfold Sloth.askKind
  split
  · exact bind getBlock fun _ => ret _
  · exact ret _

theorem runSimulation (i : SRef) (a : RunArgs) : Deaf (Sloth.runSimulation ext I i a) := by
  unfold Sloth.runSimulation
  exact bind (getSim _) fun _ => bind (lift _) fun _ => bind (lift _) fun _ => bind (lift _) fun _ => bind (askKind _) fun _ => bind (when _ (raise _)) fun _ =>
    bind (createSolver ext _) fun _ => bind (when _ (ofWorld (Blind.dofTest _))) fun _ =>
    bind (bind (solve ext I _ _) fun _ => bind (getSim _) fun _ => bind (setSim _ _) fun _ => bind (lift _) fun _ => bind (getSim _) fun _ => setSim _ _) fun _ =>
      bind (when _ (bind (getStatus i) fun _ => ret _)) fun _ => bind getBlock fun _ => when _ (residualTable i _)

theorem resetSim (i : SRef) : Deaf (Sloth.resetSim i : PyS K _) := by
  unfold Sloth.resetSim
  refine bind (getSim _) fun o => ?_
  split
  · exact bind (getD _) fun _ => setD _ _
  · exact ret _
  · exact raise _

end Deaf

/-! ## Shown results -/

theorem showRow_cosm {l l' : List Quantity} (h : List.Forall₂ Quantity.Same l l') (vd : Dict String Ref) : (showRow l vd : String × K → _) = showRow l' vd := by
  funext p
  unfold showRow
  cases dgetE vd p.1 with
  | error e => rfl
  | ok r =>
    simp only [ok_bind]
    rcases rel_cases (forall₂_get h r) with ⟨h1, h2⟩ | ⟨q, q', h1, h2, hq⟩
    · simp only [h1, h2]
    · simp only [h1, h2, hq.units]

theorem Deaf.showResults (i : SRef) : Deaf (Sloth.showResults i : PyS K _) := by
  unfold Sloth.showResults
  refine bind (getSim _) fun o => ?_
  split
  · exact raise _
  · split
    · exact raise _
    · refine bind (lift _) fun d => ?_
      split
      · exact lift _
      · refine bind getBlock fun b => get (fun s t h => ?_) fun s => lift _
        have : (showTable s.w.qs b.variableDict : Output K → _) = showTable t.w.qs b.variableDict := by
          funext o
          cases o <;> simp only [showTable, showRow_cosm h.w.qs]
        rw [this]

end
end Sloth
