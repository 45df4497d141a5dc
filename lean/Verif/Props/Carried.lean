import Verif.Props.Results

/-!
# An algebraic run ends as the numerical solver does (C100)
-/

namespace Sloth
open PyS

section
variable {K : Type} [Field K] [LinearOrder K]

/-- Settings in which the solvers are the ones chosen by default, with the starting values `d`. -/
structure Spec.Standard (c : Conf) (d : Dict String Rat) : Prop where
  problemType : dget c "problem_type" = some .none
  linear : dget c "linear_solver" = some (.str "symbolicsys")
  nonlinear : dget c "nonlinear_solver" = some (.str "*")
  guess : dget c "initial_guess" = some (.nums d)
  polisher : dget c "initial_guess_solver" = some .none
  others : ∀ k ∈ ["differential_solver", "differential_algebraic_solver", "domain", "number_parameters_to_optimize"], ∃ v, dget c k = some v

/-- The starting point: the value given for an unknown, or 1 for all if none is given. -/
def Spec.startAt (d : Dict String Rat) (names : List String) : List K := names.map fun n => (((dget d n).getD 1 : Rat) : K)

/-- How a run ends, by the answer of the numerical solver: `false` if the solver itself reports no success. -/
def Spec.ending (a : RunArgs) (eqs : List SObj) : Except Err (List K × Bool) → Except Err Unit
  | .error e => .error e
  | .ok (_, false) => .error .numerical
  | .ok (_, true) => if a.showResiduals = true ∧ ∃ e ∈ eqs, e.isPy = true then .error .attributeError else .ok ()

/-- What is stored as output, by the answer of the numerical solver. -/
def Spec.stored (names : List String) (before : Option (Output K)) : Except Err (List K × Bool) → Option (Output K)
  | .ok (x, true) => some (.dict (dofList (names.zip x)))
  | _ => before

theorem guess_startAt {d : Dict String Rat} {names : List String} (h : d = [] ∨ ∀ n ∈ names, (dget d n).isSome = true) :
    guess (K := K) names (.nums d) = .ok (Spec.startAt d names) := by
  cases d with
  | nil => simp [guess, Spec.startAt]
  | cons p t =>
    replace h := h.resolve_left (by simp)
    show names.mapM (m := Except Err) (fun v => do .ok (((← dgetE (p :: t) v) : Rat) : K)) = _
    unfold Spec.startAt
    generalize hD : p :: t = D at h
    clear hD
    induction names with
    | nil => rfl
    | cons n r ih =>
      obtain ⟨v, hv⟩ := Option.isSome_iff_exists.mp (h n (by simp))
      rw [List.mapM_cons, ih fun m hm => h m (by simp [hm])]
      simp [dgetE, hv]

theorem getResults_run {i : SRef} {s : SimWorld K} {o : SimObj K} (ho : s.sims[i]? = some o) {b : Block} (hb : s.w.pr.block = some b)
    (hk : b.problemType = some .linear ∨ b.problemType = some .nonlinear) (rt : RetType) : getResults i rt s = (algResults o.output rt, s) := by
  unfold getResults
  rw [bind_of_ok (getSim_ok.2 ⟨ho, rfl⟩), bind_of_ok (getBlock_ok.2 ⟨hb, rfl⟩)]
  rcases hk with hk | hk <;> rw [hk] <;> rfl

theorem residualTable_run {i : SRef} {s : SimWorld K} {o : SimObj K} (ho : s.sims[i]? = some o) {b : Block} (hb : s.w.pr.block = some b)
    (hk : b.problemType = some .linear ∨ b.problemType = some .nonlinear) {d : Dict String K} (hd : o.output = some (.dict d)) (l : List SObj) :
    residualTable i l s = (if ∃ e ∈ l, e.isPy = true then .error .attributeError else .ok (), s) := by
  induction l with
  | nil => simp [residualTable, PyS.pure]
  | cons e t ih =>
    unfold residualTable
    cases he : e.isPy with
    | true =>
      rw [if_pos rfl, if_pos ⟨e, by simp, he⟩]
      rfl
    | false =>
      rw [if_neg (by simp)]
      rw [bind_of_ok (a := _) (s1 := s) (by rw [getResults_run ho hb hk, hd]; rfl), ih]
      simp [he]

theorem epilogue_run {i : SRef} {s : SimWorld K} {o : SimObj K} (ho : s.sims[i]? = some o) {b : Block} (hb : s.w.pr.block = some b)
    (hk : b.problemType = some .linear ∨ b.problemType = some .nonlinear) {d : Dict String K} (hd : o.output = some (.dict d)) (a : RunArgs) :
    (epilogue i .none a.showMsg a.showResiduals s).1 = if a.showResiduals = true ∧ ∃ e ∈ b.equationsList, e.isPy = true then .error .attributeError else .ok () := by
  have hdyn : isDynamicType .none b.problemType = false := by rcases hk with hk | hk <;> rw [hk] <;> rfl
  have key : ∀ (s : SimWorld K) (o : SimObj K), s.sims[i]? = some o → s.w.pr.block = some b → o.output = some (.dict d) →
      ((getBlock >>= fun b => when (a.showResiduals && !isDynamicType .none b.problemType) (residualTable i b.equationsList)) s).1 =
        if a.showResiduals = true ∧ ∃ e ∈ b.equationsList, e.isPy = true then .error .attributeError else .ok () := by
    intro s o ho hb hd
    rw [bind_of_ok (getBlock_ok.2 ⟨hb, rfl⟩), hdyn]
    cases a.showResiduals with
    | false => simp [PyS.when, PyS.pure]
    | true =>
      show (residualTable i b.equationsList s).1 = _
      rw [residualTable_run ho hb hk hd]
      simp
  unfold epilogue
  cases a.showMsg with
  | false => exact key s o ho hb hd
  | true =>
    have hi : i < s.sims.length := (List.getElem?_eq_some_iff.1 ho).1
    rw [bind_of_ok (a := ()) (s1 := { s with sims := s.sims.set i { o with status := some 0 } }) (by
      show PyS.bind (getStatus i) (fun _ => PyS.pure ()) s = _
      simp only [PyS.bind, getStatus_algebraic ho hb hk hd, PyS.pure])]
    exact key _ { o with status := some 0 } (List.getElem?_set_self hi) hb hd

theorem dgetE_of {c : Conf} {k : String} {v : CVal} (h : dget c k = some v) : dgetE c k = .ok v := by simp [dgetE, h]

/-- The solver of an algebraic problem under standard settings: what it returns, and what is left. -/
theorem standard_solve {ext : Ext K} (I : Interp K) {c : Conf} {d : Dict String Rat} (hc : Spec.Standard c d) {s : SimWorld K} {b : Block} (hb : s.w.pr.block = some b)
    {k : ProblemKind} (hk : b.problemType = some k) (hkk : k = .linear ∨ k = .nonlinear) (hd : d = [] ∨ ∀ n ∈ b.varList, (dget d n).isSome = true) :
    ∃ sv, createSolver ext c s = (.ok sv, s) ∧ ∀ t : SimWorld K, t.w = s.w →
      sv.solve ext I c t = (ext.symSys (k == .linear) b.varList b.equationsList (Spec.startAt d b.varList) >>= fun r => (report b.varList r).map .dict,
        { t with log := t.log ++ [.symbolicSys] }) := by
  obtain ⟨v1, h1⟩ := hc.others "differential_solver" (by simp)
  obtain ⟨v2, h2⟩ := hc.others "differential_algebraic_solver" (by simp)
  have hcreate : createSolver ext c s = solverFor ext c (.str "symbolicsys") (.str "*") v1 v2 b.problemType s := by
    unfold createSolver
    rw [bind_lift_ok (dgetE_of hc.linear), bind_lift_ok (dgetE_of hc.nonlinear), bind_lift_ok (dgetE_of h1), bind_lift_ok (dgetE_of h2),
      bind_of_ok (getBlock_ok.2 ⟨hb, rfl⟩)]
  rw [hcreate, hk]
  have tail : ∀ (t : SimWorld K) (m : Bool), ((called .symbolicSys >>= fun _ => lift (ext.symSys m b.varList b.equationsList (Spec.startAt d b.varList)) >>= fun r =>
      lift (report b.varList r)) >>= fun d => PyS.pure (Output.dict d)) t =
      (ext.symSys m b.varList b.equationsList (Spec.startAt d b.varList) >>= fun r => (report b.varList r).map .dict, { t with log := t.log ++ [.symbolicSys] }) := by
    intro t m
    cases ext.symSys m b.varList b.equationsList (Spec.startAt d b.varList) with
    | error e => rfl
    | ok r =>
      show ((called .symbolicSys >>= fun _ => lift (report b.varList r)) >>= fun d => PyS.pure (Output.dict d)) t = ((report b.varList r).map .dict, _)
      cases report b.varList r with
      | error e => rfl
      | ok x => rfl
  rcases hkk with rfl | rfl
  · refine ⟨.la (some .symbolicsys), rfl, fun t ht => ?_⟩
    have hbt : t.w.pr.block = some b := by rw [ht]; exact hb
    show (laSymbolicMech ext c >>= fun d => PyS.pure (Output.dict d)) t = _
    have hl : laSymbolicMech ext c t = (called .symbolicSys >>= fun _ => lift (ext.symSys true b.varList b.equationsList (Spec.startAt d b.varList)) >>= fun r =>
        lift (report b.varList r)) t := by
      unfold laSymbolicMech
      rw [bind_of_ok (getBlock_ok.2 ⟨hbt, rfl⟩), bind_lift_ok (dgetE_of hc.guess), bind_lift_ok (guess_startAt hd)]
    rw [← tail t, bind_eq, bind_eq, PyS.bind, PyS.bind, hl]
    rfl
  · refine ⟨.nla .symbolicsys, rfl, fun t ht => ?_⟩
    have hbt : t.w.pr.block = some b := by rw [ht]; exact hb
    show (nlaSymbolicMech ext I c >>= fun d => PyS.pure (Output.dict d)) t = _
    have hl : nlaSymbolicMech ext I c t = (called .symbolicSys >>= fun _ => lift (ext.symSys false b.varList b.equationsList (Spec.startAt d b.varList)) >>= fun r =>
        lift (report b.varList r)) t := by
      unfold nlaSymbolicMech
      rw [bind_of_ok (getBlock_ok.2 ⟨hbt, rfl⟩), bind_lift_ok (dgetE_of hc.guess), bind_lift_ok (guess_startAt hd), bind_lift_ok (dgetE_of hc.polisher)]
      rfl
    rw [← tail t, bind_eq, bind_eq, PyS.bind, PyS.bind, hl]
    rfl

theorem dofTest_world (sr : SRepr) (w : World) : (dofTest sr w).2 = w := by
  unfold dofTest
  split
  · rfl
  · split
    · rfl
    · split <;> rfl

theorem solveStore_error {ext : Ext K} {I : Interp K} {i : SRef} {c : Conf} {sv : SolverObj} {s s1 : SimWorld K} {e : Err}
    (h : sv.solve ext I c s = (.error e, s1)) : solveStore ext I i c sv s = (.error e, s1) := by
  unfold solveStore
  rw [bind_of_error h]

theorem solveStore_run {ext : Ext K} {I : Interp K} {i : SRef} {c : Conf} {sv : SolverObj} {s s1 : SimWorld K} {out : Output K} {o : SimObj K} {v : CVal}
    (h : sv.solve ext I c s = (.ok out, s1)) (ho : s1.sims[i]? = some o) (hv : dget c "domain" = some v) :
    solveStore ext I i c sv s = (.ok (), { s1 with sims := s1.sims.set i { o with output := some out, domain := v } }) := by
  have hi : i < s1.sims.length := (List.getElem?_eq_some_iff.1 ho).1
  unfold solveStore
  rw [bind_of_ok h, bind_of_ok (getSim_ok.2 ⟨ho, rfl⟩)]
  rw [bind_of_ok (a := ()) (s1 := { s1 with sims := s1.sims.set i { o with output := some out } }) (by rfl), bind_lift_ok (dgetE_of hv)]
  rw [bind_of_ok (getSim_ok.2 ⟨List.getElem?_set_self hi, rfl⟩)]
  show ((Except.ok () : Except Err Unit), _) = _
  simp [List.set_set]

/-- C100: a run of an algebraic problem under standard settings whose check of the degrees of freedom passes (or is left out) ends exactly as the numerical solver
does: with its exception, with `NumericalError` if it reports no success, and else with the solution stored under the names of the unknowns; then only the table of
residuals can raise, and it does exactly if it is asked for and an equation has become a plain number. -/
theorem run_ends_as_solver (ext : Ext K) (I : Interp K) {i : SRef} (a : RunArgs) {s : SimWorld K} {o : SimObj K} {c : Conf} {d : Dict String Rat} {b : Block}
    {k : ProblemKind} (ho : s.sims[i]? = some o) (hoc : o.conf = some c) (hc : Spec.Standard c d) (hb : s.w.pr.block = some b)
    (hk : b.problemType = some k) (hkk : k = .linear ∨ k = .nonlinear) (hd : d = [] ∨ ∀ n ∈ b.varList, (dget d n).isSome = true)
    (hsan : a.sanity = true → (dofTest ext.sr s.w).1 = .ok ()) :
    (runSimulation ext I i a s).1 = Spec.ending a b.equationsList (ext.symSys (k == .linear) b.varList b.equationsList (Spec.startAt d b.varList)) ∧
    ∃ o', (runSimulation ext I i a s).2.sims[i]? = some o' ∧
      o'.output = Spec.stored b.varList o.output (ext.symSys (k == .linear) b.varList b.equationsList (Spec.startAt d b.varList)) := by
  obtain ⟨v1, h1⟩ := hc.others "domain" (by simp)
  obtain ⟨v2, h2⟩ := hc.others "number_parameters_to_optimize" (by simp)
  obtain ⟨sv, hsv, hsolve⟩ := standard_solve (ext := ext) I hc hb hk hkk hd
  have hkk' : b.problemType = some .linear ∨ b.problemType = some .nonlinear := by rcases hkk with rfl | rfl <;> simp [hk]
  have hi : i < s.sims.length := (List.getElem?_eq_some_iff.1 ho).1
  have hsanity : Sloth.sanity ext a.sanity s = (.ok (), s) := by
    unfold Sloth.sanity
    cases hs : a.sanity with
    | false => rfl
    | true =>
      have := hsan hs
      show ((dofTest ext.sr s.w).1, ({ s with w := (dofTest ext.sr s.w).2 } : SimWorld K)) = _
      rw [this, dofTest_world]
  have hrun : runSimulation ext I i a s = (solveStore ext I i c sv >>= fun _ => epilogue i .none a.showMsg a.showResiduals) s := by
    unfold runSimulation
    rw [bind_of_ok (getSim_ok.2 ⟨ho, rfl⟩), bind_lift_ok (a := c) (by rw [hoc]), bind_lift_ok (dgetE_of hc.problemType), bind_lift_ok (dgetE_of h2),
      ask_run hb, bind_of_ok (a := ()) (s1 := s) (by rw [hk]; rcases hkk with rfl | rfl <;> rfl), bind_of_ok hsv, bind_of_ok hsanity]
  rw [hrun]
  have hsol := hsolve s rfl
  generalize hans : ext.symSys (k == .linear) b.varList b.equationsList (Spec.startAt d b.varList) = ans at hsol
  match ans, hsol with
  | .error e, hsol =>
    rw [bind_of_error (solveStore_error hsol)]
    exact ⟨rfl, o, ho, rfl⟩
  | .ok (x, false), hsol =>
    rw [bind_of_error (solveStore_error hsol)]
    exact ⟨rfl, o, ho, rfl⟩
  | .ok (x, true), hsol =>
    rw [bind_of_ok (solveStore_run hsol ho h1)]
    have ho1 : (s.sims.set i { o with output := some (.dict (dofList (b.varList.zip x))), domain := v1 })[i]? = some { o with output := some (.dict (dofList (b.varList.zip x))), domain := v1 } :=
      List.getElem?_set_self hi
    refine ⟨epilogue_run (s := { s with log := s.log ++ [.symbolicSys], sims := s.sims.set i { o with output := some (.dict (dofList (b.varList.zip x))), domain := v1 } }) ho1 hb hkk' rfl a, ?_⟩
    have he := epilogue_output (K := K) (i := i) (pt := .none) (m := a.showMsg) (r := a.showResiduals)
      (s := { s with log := s.log ++ [.symbolicSys], sims := s.sims.set i { o with output := some (.dict (dofList (b.varList.zip x))), domain := v1 } }) rfl
    have he := congrArg (fun l => l[i]?) he
    simp only [List.getElem?_map, ho1, Option.map_some] at he
    obtain ⟨o2, ho2, he⟩ := Option.map_eq_some_iff.1 he
    simp only [Prod.mk.injEq] at he
    exact ⟨o2, ho2, he.1⟩

/-- Settings made from keyword arguments: each has the value given, or its default; the name of time can come from the problem. -/
theorem configure_args (tn : Option (List String)) {kw : Conf} (hn : DNodup kw) (hk : ∀ k ∈ dkeys kw, k ∈ dkeys confDefaults) :
    ∃ c, configure tn kw none none = .ok c ∧ (∀ k, k ≠ "time_variable_name" → dget c k = (dget kw k).or (dget confDefaults k)) ∧
      dget c "time_variable_name" = if dget kw "is_dynamic" = some (.bool true) ∧ (dget kw "time_variable_name").getD .none = .none then some (timeSetting tn)
        else (dget kw "time_variable_name").or (some .none) := by
  have hb : bindArgs kw = .ok (dupdate confDefaults kw) := by
    unfold bindArgs
    rw [if_pos]
    rw [List.all_eq_true]
    intro p hp
    exact (dget_isSome_iff _ _).mpr (hk p.1 (List.mem_map.mpr ⟨p, hp, rfl⟩))
  have hget := fun k => dget_dupdate confDefaults hn k
  have hfrom : ∀ k, k ≠ "time_variable_name" → dget (confFromArgs tn (dupdate confDefaults kw)) k = (dget kw k).or (dget confDefaults k) := by
    intro k hne
    unfold confFromArgs
    split
    · rw [dget_dset_ne _ _ (Ne.symm hne)]; exact hget k
    · exact hget k
  refine ⟨confFromArgs tn (dupdate confDefaults kw), ?_, hfrom, ?_⟩
  · unfold configure
    rw [hb]
    obtain ⟨v, hv⟩ : ∃ v, dget (confFromArgs tn (dupdate confDefaults kw)) "number_parameters_to_optimize" = some v := by
      rw [hfrom _ (by decide)]
      cases dget kw "number_parameters_to_optimize" with
      | none => exact ⟨_, rfl⟩
      | some x => exact ⟨_, rfl⟩
    have hv' : dget (dupdate confDefaults kw) "number_parameters_to_optimize" = some v := by rw [hget, ← hfrom _ (by decide)]; exact hv
    show (dgetE (dupdate confDefaults kw) "number_parameters_to_optimize" >>= fun n => confOptimize n (confFromArgs tn (dupdate confDefaults kw))) = _
    rw [dgetE_of hv']
    show confOptimize v _ = _
    unfold confOptimize
    split
    · rfl
    · rw [dgetE_of hv]
      show (Except.ok (if v = v then _ else _) : Except Err Conf) = _
      rw [if_pos rfl]
  · have h1 : dget (dupdate confDefaults kw) "time_variable_name" = (dget kw "time_variable_name").or (some .none) := hget _
    have h2 : dget (dupdate confDefaults kw) "is_dynamic" = (dget kw "is_dynamic").or (some (.bool false)) := hget _
    have e2 : dget (dupdate confDefaults kw) "is_dynamic" = some (.bool true) ↔ dget kw "is_dynamic" = some (.bool true) := by
      rw [h2]; cases dget kw "is_dynamic" <;> simp
    have e1 : dget (dupdate confDefaults kw) "time_variable_name" = some .none ↔ (dget kw "time_variable_name").getD .none = .none := by
      rw [h1]; cases dget kw "time_variable_name" <;> simp
    unfold confFromArgs
    by_cases hd : dget kw "is_dynamic" = some (.bool true) ∧ (dget kw "time_variable_name").getD .none = .none
    · rw [if_pos ⟨e1.mpr hd.2, e2.mpr hd.1⟩, if_pos hd, dget_dset_self]
    · rw [if_neg (fun h => hd ⟨e2.mp h.2, e1.mp h.1⟩), if_neg hd, h1]

/-- Settings made from keyword arguments that leave the choice of solvers alone are standard. -/
theorem standard_settings (tn : Option (List String)) {kw : Conf} (hn : DNodup kw) (hk : ∀ k ∈ dkeys kw, k ∈ dkeys confDefaults ∧
      k ∉ ["problem_type", "linear_solver", "nonlinear_solver", "initial_guess_solver"]) {d : Dict String Rat}
    (hg : dget kw "initial_guess" = some (.nums d) ∨ dget kw "initial_guess" = none ∧ d = []) :
    ∃ c, configure tn kw none none = .ok c ∧ Spec.Standard c d := by
  obtain ⟨c, hc, hfrom, _⟩ := configure_args tn hn fun k h => (hk k h).1
  have hnot : ∀ k ∈ ["problem_type", "linear_solver", "nonlinear_solver", "initial_guess_solver"], k ≠ "time_variable_name" → dget c k = dget confDefaults k := by
    intro k hkk hne
    rw [hfrom k hne, (dget_eq_none_iff _ _).mpr fun hc => (hk k hc).2 hkk]
    rfl
  exact ⟨c, hc, {
    problemType := hnot _ (by decide) (by decide)
    linear := hnot _ (by decide) (by decide)
    nonlinear := hnot _ (by decide) (by decide)
    polisher := hnot _ (by decide) (by decide)
    guess := by
      rw [hfrom _ (by decide)]
      rcases hg with hg | ⟨hg, rfl⟩ <;> rw [hg] <;> rfl
    others := fun k hkk => by
      rw [hfrom k (by rintro rfl; revert hkk; decide)]
      obtain ⟨v, hv⟩ := Option.isSome_iff_exists.mp ((dget_isSome_iff confDefaults k).mpr (by revert k; decide))
      rw [hv]
      cases dget kw k with
      | none => exact ⟨_, rfl⟩
      | some x => exact ⟨_, rfl⟩ }⟩

/-- C100: in a session, a well-posed algebraic problem is solved: when the check of the degrees of freedom passes, no equation is a plain number, and the
numerical solver finds a solution, the run returns, and the simulation holds the solution under the names of the unknowns. -/
theorem wellposed_run (ext : Ext K) (I : Interp K) {i : SRef} (a : RunArgs) {w : World} (hr : Reachable w) {s : SimWorld K} (hres : resolve w = (.ok (), s.w))
    {o : SimObj K} {c : Conf} {d : Dict String Rat} {b : Block} {k : ProblemKind} (ho : s.sims[i]? = some o) (hoc : o.conf = some c) (hc : Spec.Standard c d)
    (hb : s.w.pr.block = some b) (hk : b.problemType = some k) (hkk : k = .linear ∨ k = .nonlinear)
    (hd : d = [] ∨ ∀ n ∈ b.varList, (dget d n).isSome = true) (hsan : a.sanity = true → (dofTest ext.sr s.w).1 = .ok ())
    (hpy : ∀ e ∈ b.equationsList, e.isPy = false) {x : List K}
    (hx : ext.symSys (k == .linear) b.varList b.equationsList (Spec.startAt d b.varList) = .ok (x, true)) :
    ∃ s' o' D, runSimulation ext I i a s = (.ok (), s') ∧ s'.sims[i]? = some o' ∧ o'.output = some (.dict D) ∧ Spec.Reports b.varList x D := by
  obtain ⟨b', hb', hn⟩ := resolved_unknowns hr hres
  obtain rfl : b = b' := Option.some.inj (hb.symm.trans hb')
  obtain ⟨h1, o', h2, h3⟩ := run_ends_as_solver ext I a ho hoc hc hb hk hkk hd hsan
  rw [hx] at h1 h3
  refine ⟨_, o', _, Prod.ext ?_ rfl, h2, h3, reports_zip hn x⟩
  rw [h1]
  show (if _ then _ else _) = _
  rw [if_neg]
  rintro ⟨-, e, he, hp⟩
  rw [hpy e he] at hp; cases hp

end

/-! ## Samples -/

/-- The keyword arguments of a user who gives a starting point meet the hypotheses of `standard_settings`. -/
example : DNodup [("initial_guess", CVal.nums [("x_m", 1), ("y_m", 1)]), ("print_output", .bool true)] ∧
    ∀ k ∈ dkeys [("initial_guess", CVal.nums [("x_m", 1), ("y_m", 1)]), ("print_output", .bool true)], k ∈ dkeys confDefaults ∧
      k ∉ ["problem_type", "linear_solver", "nonlinear_solver", "initial_guess_solver"] := by
  unfold DNodup
  decide +kernel

/-- The sample problem meets the hypotheses of the two theorems about runs. -/
example :
    let s := simHistory Ex.ext Ex.ratI (Ex.lin.map .base ++ [.newSim "s", .configure 0 [] none none])
    (s.sims[0]?.map fun o => o.conf) = some (some confDefaults) ∧ Spec.Standard confDefaults [] ∧ (dofTest Ex.ext.sr s.w).1.toOption = some () ∧
    (s.w.pr.block.map fun b => (b.problemType, b.varList, b.equationsList.map SObj.isPy)) = some (some .linear, ["y_m", "x_m"], [false, false]) ∧
    (runSimulation Ex.ext Ex.ratI 0 {} s).1.toOption = some () := by
  refine ⟨by decide +kernel, ⟨rfl, rfl, rfl, rfl, rfl, ?_⟩, by decide +kernel, by decide +kernel, by decide +kernel⟩
  intro k hk
  simp only [List.mem_cons, List.not_mem_nil, or_false] at hk
  rcases hk with rfl | rfl | rfl | rfl <;> exact ⟨_, rfl⟩

/-- Two unknowns, one of them given a value; its equation mentions nothing else. -/
def Ex.pinned : List (SOp Rat) := ([.newModel "m" "" {} none, .cmd 0 (Ex.dv "x"), .cmd 0 (Ex.dv "y"), .cmd 0 (.setValue { attr := "y" } (.float 2) none),
  .cmd 0 (Ex.eq_ "one" (.res (.binN .sub (Ex.at_ "x") 1))), .cmd 0 (Ex.eq_ "two" (.res (.binN .sub (Ex.at_ "y") 2))),
  .addModels (.leaf 0), .resolve] : List Op).map .base ++ [.newSim "s", .configure 0 [] none none]

/-- C100: a run can raise `AttributeError` after the solution is found and stored, with the default arguments and a library that reports success. -/
theorem residuals_of_number_raise : ∃ (ext : Ext Rat) (ops : List (SOp Rat)),
    (match (runSimulation ext Ex.ratI 0 {} (simHistory ext Ex.ratI ops)).1 with | .error e => some e | .ok _ => none) = some .attributeError ∧
    ((runSimulation ext Ex.ratI 0 {} (simHistory ext Ex.ratI ops)).2.sims.map fun o => (o.output, o.status)) =
      [(some (.dict [("x_m", 1), ("y_m", 2)]), some 0)] ∧
    (runSimulation ext Ex.ratI 0 { showResiduals := false } (simHistory ext Ex.ratI ops)).1.toOption = some () :=
  ⟨{ Ex.ext with symSys := fun _ _ _ _ => .ok ([1, 2], true) }, Ex.pinned, by decide +kernel⟩

end Sloth
